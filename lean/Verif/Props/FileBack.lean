import Verif.FileBackLemmas
import Verif.Props.Gaps

/-! Property C97: a NASA Ames file converted to NetCDF and back. -/

namespace Nappy.Props

open Nappy Spec

variable {F : Type}

theorem forall₂_split {α β : Type} {R : α → β → Prop} : ∀ {l1 l2 : List α} {m : List β},
    List.Forall₂ R (l1 ++ l2) m → ∃ m1 m2, m = m1 ++ m2 ∧ List.Forall₂ R l1 m1 ∧ List.Forall₂ R l2 m2
  | [], l2, m, h => ⟨[], m, rfl, .nil, h⟩
  | a :: l1, l2, _, .cons (b := b) h t => by
    obtain ⟨m1, m2, rfl, h1, h2⟩ := forall₂_split t
    exact ⟨b :: m1, m2, rfl, .cons h h1, h2⟩

/-- The attributes of a regular file fit together. -/
theorem regular_facts {o : Obj F} (h : Regular o) :
    0 < (varHeader o).NV ∧ ((varHeader o).VMISS.length : Int) = (varHeader o).NV ∧
      (∀ i t, mainArray o i = some t → leaves t ∈ mainValues o) ∧
      (∀ i : Nat, (mainArray o i).isSome → (i : Int) < (varHeader o).NV) ∧
      0 ≤ Spec.auxCount o ∧ ((auxValues o).length : Int) = Spec.auxCount o ∧
      (∀ i, auxColumn o i = (auxValues o)[i]?) ∧
      (∀ l, (auxSection o).map AuxHdr.AMISS = some l → (l.length : Int) = Spec.auxCount o) ∧
      (∀ h, auxSection o = some h → Spec.auxCount o = h.NAUXV) := by
  cases h with
  | one f hw =>
    refine ⟨hw.vars.pos, hw.vars.vmiss, fun i t ht => ?_, fun i hi => ?_, Int.le_refl _, rfl, fun i => rfl,
      fun l hl => (by cases hl), fun l hl => (by cases hl)⟩
    · rw [mainArray, Option.map_eq_some_iff] at ht
      obtain ⟨col, h1, rfl⟩ := ht
      rw [leaves_col]
      exact List.mem_of_getElem? h1
    · rw [mainArray, Option.isSome_map] at hi
      obtain ⟨col, h1⟩ := Option.isSome_iff_exists.1 hi
      have := (List.getElem?_eq_some_iff.1 h1).1
      have := hw.data.1
      show (i : Int) < f.v.NV
      omega
  | more f hw =>
    refine ⟨hw.vars.pos, hw.vars.vmiss, fun i t ht => ?_, fun i hi => ?_, hw.aux.nonneg, hw.aux_data.1, fun i => rfl,
      fun l hl => ?_, fun l hl => ?_⟩
    · rw [mainArray, Option.map_eq_some_iff] at ht
      obtain ⟨col, h1, rfl⟩ := ht
      show leaves _ ∈ f.V.map leavesList
      rw [leaves]
      exact List.mem_map.2 ⟨col, List.mem_of_getElem? h1, rfl⟩
    · rw [mainArray, Option.isSome_map] at hi
      obtain ⟨col, h1⟩ := Option.isSome_iff_exists.1 hi
      have := (List.getElem?_eq_some_iff.1 h1).1
      have := hw.data.1
      show (i : Int) < f.v.NV
      omega
    · injection hl with hl
      rw [← hl]
      exact hw.aux.amiss
    · injection hl with hl
      rw [← hl]
      rfl

theorem forall₂_at {α β : Type} {R : α → β → Prop} {l : List α} {m : List β} (h : List.Forall₂ R l m) {i : Nat} {b : β}
    (hb : m[i]? = some b) : ∃ a, l[i]? = some a ∧ R a b := by
  obtain ⟨h1, h2⟩ := List.forall₂_iff_get.1 h
  have hi := (List.getElem?_eq_some_iff.1 hb).1
  have := h2 i (by omega) hi
  rw [List.getElem?_eq_getElem hi] at hb
  injection hb with hb
  rw [List.get_eq_getElem, List.get_eq_getElem, hb] at this
  exact ⟨_, List.getElem?_eq_getElem _, this⟩

/-- What the two files have in common, from the variables between them. -/
theorem same_numbers {te : ToXEnv F} {x : XEnv F} {q : F → F} {user : Dict (PyVal F)} {tu : Option Str} {o o' : Obj F}
    {r : ToXResult F} {a : Analysis F} {d : Dict (PyVal F)} {renames : Renames}
    (hret : Returnable te renames x o) (h : toXarray te user .all .all tu o = .ok r)
    (hm : List.Forall₂ (Reopened x.isNaN) r.vars a.main) (hx : List.Forall₂ (Reopened x.isNaN) r.aux a.aux)
    (hffi : a.ffi = o.FFI) (hh : Holds x q a d o') : SameNumbers te.add x q o o' := by
  obtain ⟨l1, m1⟩ := C64_values h
  obtain ⟨l2, m2⟩ := C64_aux h
  obtain ⟨f1, f2, f3, f4, f5, f6, f7, f8, f9⟩ := regular_facts hret.regular
  have lm := hm.length_eq
  have lx := hx.length_eq
  -- the variables between the files
  have hmain : ∀ (i : Nat) w, a.main[i]? = some w → mainArray o i = some (written x w) ∧
      (varHeader o).VMISS[i]? = some (w.miss.getD x.defaultMiss) := by
    intro i w hw
    obtain ⟨v, hv, hr⟩ := forall₂_at hm hw
    obtain ⟨⟨name, miss, scale, data, q1, q2, q3⟩, _, _, q4, _⟩ := m1 i v hv
    rw [reopened_written hr, written_same q3 (hret.scales scale (List.mem_append_left _ (List.mem_of_getElem? q1.2.2)))
      q4 (hret.values _ (List.mem_append_left _ (f3 i data q2)))]
    refine ⟨q2, ?_⟩
    rw [(reopened_same hr).2.2.2.2.2.1, q3.2.1]
    exact q1.2.1
  have hvmiss : (varHeader o).VMISS = a.main.map (fun v => v.miss.getD x.defaultMiss) :=
    (map_eq_of (by omega) fun i w hw => (hmain i w hw).2).symm
  have haux : ∀ (i : Nat) w, a.aux[i]? = some w → (auxValues o)[i]? = some (leaves (written x w)) ∧
      ∀ l, (auxSection o).map AuxHdr.AMISS = some l → l[i]? = some (w.miss.getD x.defaultMiss) := by
    intro i w hw
    obtain ⟨v, hv, hr⟩ := forall₂_at hx hw
    obtain ⟨⟨name, miss, scale, col, q1, q2, q3⟩, _, _, q4, _⟩ := m2 i v hv
    have hs : scale ∈ auxScales o ∧
        ∀ l, (auxSection o).map AuxHdr.AMISS = some l → l[i]? = some miss := by
      cases hret.regular with
      | one f hw => exact q1.elim
      | more f hw =>
        refine ⟨List.mem_of_getElem? q1.2.2.2, fun l hl => ?_⟩
        obtain ⟨m, h1, h2⟩ := q1.2.1
        injection h2 with h2
        injection hl with hl
        rw [← hl, h2]
        exact h1
    rw [f7] at q2
    rw [reopened_written hr, written_same q3 (hret.scales scale (List.mem_append_right _ hs.1)) q4
      (by rw [leaves_col]; exact hret.values _ (List.mem_append_right _ (List.mem_of_getElem? q2))), leaves_col]
    refine ⟨q2, fun l hl => ?_⟩
    rw [(reopened_same hr).2.2.2.2.2.1, q3.2.1]
    exact hs.2 l hl
  have hauxv : auxValues o = a.aux.map (fun v => leaves (written x v)) :=
    (map_eq_of (by omega) fun i w hw => (haux i w hw).1).symm
  have hfam : a.ffi = 1001 ∧ (∃ f, o = .o1001 f) ∧ (axisHeader o).1 = 1 ∨
      (a.ffi = 2010 ∨ a.ffi = 3010 ∨ a.ffi = 4010) ∧ (∃ f, o = .o2010 f) := by
    rw [hffi]
    cases hret.regular with
    | one f hw => exact .inl ⟨hw.ffi, ⟨f, rfl⟩, hw.niv⟩
    | more f hw =>
      refine .inr ⟨?_, ⟨f, rfl⟩⟩
      show f.c.FFI = 2010 ∨ f.c.FFI = 3010 ∨ f.c.FFI = 4010
      rcases hw.ffi with ⟨e, _⟩ | ⟨e, _⟩ | ⟨e, _⟩ <;> omega
  have h4 : a.ffi = 1001 ∨ a.ffi = 2010 ∨ a.ffi = 3010 ∨ a.ffi = 4010 := by
    rcases hfam with ⟨e, _⟩ | ⟨e, _⟩
    · exact .inl e
    · exact .inr e
  obtain ⟨hnv, _⟩ := holds_count hh h4
  have hnv : (varHeader o').NV = (varHeader o).NV := by omega
  have harr : ∀ i, mainArray o' i = (mainArray o i).map (mapTree q) := by
    intro i
    rw [hh.arrays h4 i]
    cases hw : a.main[i]? with
    | some w => rw [(hmain i w hw).1]; rfl
    | none =>
      have := List.getElem?_eq_none_iff.1 hw
      cases ht : mainArray o i with
      | none => rfl
      | some t =>
        have := f4 i (by rw [ht]; rfl)
        omega
  -- the axes of the variables between the files
  have hax : ∀ v, v ∈ a.main → ∃ l, AxisValues te.add o l ∧ v.axes.map XAxis.values = l := by
    intro w hw
    obtain ⟨v, hv, hr⟩ := forall₂_mem_right hm hw
    obtain ⟨i, hi⟩ := List.getElem?_of_mem hv
    obtain ⟨_, _, _, _, l, g1, g2⟩ := m1 i v hi
    refine ⟨l, g1, ?_⟩
    rw [(reopened_same hr).2.1, g2, List.take_of_length_le]
    cases hret.regular with
    | one f hw =>
      rw [show l = [f.X] from g1]
      show 1 ≤ f.NIV.toNat
      rw [hw.niv]
      decide
    | more f hw =>
      obtain ⟨s, k1, k2⟩ := g1
      obtain ⟨s1, e1, e2, e3⟩ := normalize_ok te.add hw
      rw [k1] at e1
      injection e1 with e1
      subst e1
      have e1 := congrArg List.length e2
      simp only [List.length_map] at e1
      have := hw.nx
      rw [k2, List.length_cons, e1]
      show _ ≤ f.NIV.toNat
      omega
  have hmark : ∀ l, AxisValues te.add o l → l.head? = some (markValues o) := by
    intro l hl
    cases hret.regular with
    | one f hw => rw [show l = [f.X] from hl]; rfl
    | more f hw =>
      obtain ⟨s, k1, k2⟩ := hl
      obtain ⟨s1, e1, _, e3⟩ := normalize_ok te.add hw
      rw [k1] at e1
      injection e1 with e1
      subst e1
      rw [k2, e3]
      rfl
  have hmarks : markValues o' = (markValues o).map q := by
    obtain ⟨v, ax0, k1, k2, k3⟩ := hh.axis (by omega)
    obtain ⟨l, g1, g2⟩ := hax v (List.mem_of_mem_head? (by rw [k1]; rfl))
    have := hmark l g1
    rw [← g2, List.head?_map, k2] at this
    injection this with this
    rw [k3, this]
  rcases hfam with ⟨e1, ⟨f, rfl⟩, hniv⟩ | ⟨e1, ⟨f, rfl⟩⟩
  · obtain ⟨s, rfl, w⟩ := hh.wf1001 e1
    refine ⟨by rw [hh.format, hffi], hnv, harr, by rw [hh.missing, hvmiss], fun y hy => ?_, rfl, rfl, rfl, hmarks,
      fun _ l hl hq => ?_⟩
    · rw [hh.scale] at hy
      rcases List.mem_append.1 hy with hy | hy
      · obtain ⟨_, _, rfl⟩ := List.mem_map.1 hy
        rfl
      · cases hy
    · have hl : l = [f.X] := hl
      subst hl
      have e : s.X = f.X.map q := hmarks
      show [f.X] = [s.X]
      rw [e]
      congr 1
      conv_lhs => rw [← List.map_id f.X]
      exact List.map_congr_left fun y hy => (hq f.X (by simp) y hy).symm
  · obtain ⟨pre, hd, k1, k2, k3, k4, k5, _⟩ := hh.aux (by omega) (by omega)
    obtain ⟨s, rfl, w⟩ := hh.wf2010 e1
    have h0 : ownAux a.ffi = 0 := by simp [ownAux, show a.ffi ≠ 2110 by omega, show a.ffi ≠ 2310 by omega]
    rw [h0] at k1 k4 k5
    rw [List.length_eq_zero_iff.1 k1, List.nil_append] at k3
    injection k2 with k2
    subst k2
    simp only [List.drop_zero] at k4 k5
    have hamiss : s.aux.AMISS = f.aux.AMISS := by
      rw [k4]
      refine map_eq_of ?_ fun i w hw => (haux i w hw).2 _ rfl
      have := f8 _ rfl
      omega
    have hcnt : s.aux.NAUXV = f.aux.NAUXV := by
      have e1 := w.aux.amiss
      have e2 := f8 _ rfl
      rw [hamiss] at e1
      exact e1.symm.trans e2
    refine ⟨by rw [hh.format, hffi], hnv, harr, by rw [hh.missing, hvmiss], fun y hy => ?_, hcnt, ?_,
      congrArg some hamiss, hmarks, fun hex l hl hq => ?_⟩
    · rcases List.mem_append.1 hy with hy | hy
      · rw [hh.scale] at hy
        obtain ⟨_, _, rfl⟩ := List.mem_map.1 hy
        rfl
      · have hy : y ∈ s.aux.ASCAL := hy
        rw [k5] at hy
        obtain ⟨_, _, rfl⟩ := List.mem_map.1 hy
        rfl
    · rw [k3, hauxv, List.map_map]
      rfl
    · obtain ⟨v, ax0, more, k6, k7, _, _, k8⟩ := hh.axes e1
      obtain ⟨l', g1, g2⟩ := hax v (List.mem_of_mem_head? (by rw [k6]; rfl))
      rw [axisValues_unique g1 hl] at g2
      rw [← g2]
      refine k8 te.add hex fun ax hx y hy => hq ax.values ?_ y hy
      rw [← g2]
      exact List.mem_map.2 ⟨ax, hx, rfl⟩

/-- The trip, with what is made on the way. -/
theorem trip_core (fmt : Str → Codec F) (table : String → Str) {cd : Codec F} {tenv : ToXEnv F} {typed : List Str}
    {naFile text ncName : Str} {na : NAToNCArgs F} {nc nc' : NCFile F} {o : Obj F}
    (hto : convertNAToNC cd tenv typed naFile text na = .ok (ncName, nc)) (hmain : na.mainVars = .all)
    (haux : na.auxVars = .all) (hattrs : (na.globalAttributes.map Prod.fst).Nodup)
    (hread : readFile cd 0 text = .ok o)
    (hcount : nc.vars.length = (varHeader o).NV.toNat + (Spec.auxCount o).toNat)
    (env : ApiEnv F) (args : NCToNAArgs F) (hret : Returnable tenv na.renameVariables env.collect.x o)
    (hfree : NamesFree nc.vars) (hopen : env.openNC args.ncFile = .ok nc')
    (hback : ReopenedFile env.collect.x.isNaN nc nc')
    (hids : args.varIds = none) (hexc : args.excludeVars = []) (hreq : args.requestedFFI = none)
    (hloc : LocalKnown env.collect.localNc)
    (huni : ∀ ax, ax.values ≠ [] → ∃ u, env.collect.x.uniform ax = .ok u)
    {q : F → F} (hcd : (fmt args.opts.floatFormat).Lawful q) (hdel : WsDelim args.opts.delimiter)
    (ho : args.opts.annotation = false) (hh : args.opts.noHeader = false) (hsz : args.opts.sizeLimit = none)
    (hnames : args.onlyNames = false)
    (hfit : ∀ d, ncDicts env args = .ok [d] → TripFits env args.naItems args.opts.delimiter o.FFI d) :
    ∃ c out o', (convertNCToNA (emitFile fmt table) env args).result = .ok [c.name] ∧
      (convertNCToNA (emitFile fmt table) env args).calls = [c] ∧ fileOf fmt table c = .ok out ∧ out.err = none ∧
      readFile (fmt args.opts.floatFormat) 0 out.text = .ok o' ∧ SameNumbers tenv.add env.collect.x q o o' ∧
      ∃ te user r a d, te.renames = na.renameVariables ∧ te.cb = tenv.cb ∧
        (te.isTime = tenv.isTime ∧ te.timeMatch = tenv.timeMatch ∧
          te.answers = (if na.timeWarning then some typed else none)) ∧
        toXarray te user .all .all na.timeUnits o = .ok r ∧
        List.Forall₂ (Reopened env.collect.x.isNaN) r.vars a.main ∧
        List.Forall₂ (Reopened env.collect.x.isNaN) r.aux a.aux ∧ collectDict env.collect nc'.attrs a = .ok d ∧
        prepareDict env.cfg args.naItems args.opts.delimiter d = .ok c.dict ∧ Holds env.collect.x q a c.dict o' ∧
        te.hp = tenv.hp ∧ (user.map Prod.fst).Nodup ∧
        List.Forall₂ AttrReopened (r.attrs.map (fun kv => (kv.1, fixInts kv.2))) nc'.attrs ∧
        nc.vars = r.vars ++ r.aux := by
  obtain ⟨o1, r, g1, g2, g3, g4, g5, g6⟩ := C77_file hto
  rw [hread] at g1
  have e := Except.ok.inj g1
  subst e
  have hncattrs : nc.attrs = r.attrs.map (fun kv => (kv.1, fixInts kv.2)) := by
    have hto := hto
    unfold convertNAToNC at hto
    obtain ⟨o2, k1, hto⟩ := ok_of_bind hto
    obtain ⟨o3, k2, hto⟩ := ok_of_bind hto
    obtain ⟨r', k3, hto⟩ := ok_of_bind hto
    have hread := hread
    unfold readFile at hread
    rw [k1, ok_bind, k2] at hread
    have e := Except.ok.inj hread
    subst e
    rw [g2] at k3
    have e := Except.ok.inj k3
    subst e
    have e := Except.ok.inj hto
    injection e with _ e
    rw [← e]
    rfl
  rw [hmain, haux] at g2
  generalize ht : ({ tenv with renames := _, answers := _ } : ToXEnv F) = te at g2
  have hret' : Returnable te na.renameVariables env.collect.x o := by
    rw [← ht]
    exact ⟨hret.regular, hret.scales, hret.axes, hret.values, hret.count, hret.auxCount, hret.names⟩
  have hren : te.renames = na.renameVariables := by rw [← ht]
  have hadd : te.add = tenv.add := by rw [← ht]
  obtain ⟨l1, _⟩ := C64_values g2
  obtain ⟨l2, _⟩ := C64_aux g2
  have hnd : ((r.vars ++ r.aux).map XVar.name).Nodup := by
    have hsub : (nc.vars.map XVar.name).Subperm ((r.vars ++ r.aux).map XVar.name) :=
      List.subperm_of_subset g3 (fun s hs => (g4 s).1 hs)
    have hp := hsub.perm_of_length_le (by simp [hcount, l1, l2])
    exact hp.nodup_iff.1 g3
  have hvars := g6 hnd
  obtain ⟨ws, w1, w2, w3⟩ := hback.vars
  rw [hvars] at w1 w3 hfree
  obtain ⟨vs, as, rfl, w4, w5⟩ := forall₂_split w1
  obtain ⟨n, axes, is, v1, _⟩ := toXarray_parts g2
  have vf := view_facts v1
  obtain ⟨f1, f2, _, _, f5, _⟩ := regular_facts hret.regular
  have hcases : 1 ≤ (axisHeader o).1 ∧ (axisHeader o).1 ≤ 4 ∧ (2 ≤ (axisHeader o).1 ∨ r.aux = []) ∧
      o.common.FFI = backFormat (axisHeader o).1.toNat ∧
      n.v.VNAME ++ (n.aux.map AuxHdr.ANAME).getD [] = (varHeader o).VNAME ++ auxNames o := by
    cases hret.regular with
    | one f hw =>
      have e : (axisHeader (Obj.o1001 f)).1 = 1 := hw.niv
      have e2 : (Obj.o1001 f).common.FFI = 1001 := hw.ffi
      rw [e, e2]
      injection v1 with v1
      subst v1
      exact ⟨by decide, by decide, .inr (List.length_eq_zero_iff.1 l2), rfl, rfl⟩
    | more f hw =>
      have e : (axisHeader (Obj.o2010 f)).1 = f.NIV := rfl
      have e2 : (Obj.o2010 f).common.FFI = f.c.FFI := rfl
      obtain ⟨s, k1, _, k3⟩ := normalize_ok te.add hw
      simp only [Obj.view, k1, ok_bind] at v1
      injection v1 with v1
      subst v1
      refine ⟨?_, ?_, .inl ?_, ?_, ?_⟩
      · rw [e]; rcases hw.ffi with h | h | h <;> omega
      · rw [e]; rcases hw.ffi with h | h | h <;> omega
      · rw [e]; rcases hw.ffi with h | h | h <;> omega
      · rw [e, e2]
        unfold backFormat
        rcases hw.ffi with ⟨h, h'⟩ | ⟨h, h'⟩ | ⟨h, h'⟩ <;> rw [h, h'] <;> rfl
      · rw [k3]
        rfl
  obtain ⟨c1, c2, c3, c4, c5⟩ := hcases
  obtain ⟨p1, d, a, p2, p3, p4, p5, p6, p7, p8⟩ := reopened_pass (cenv := env.collect) (show_ := env.showTree)
    (fuel := nc'.vars.length) v1 g2 hattrs (by rw [vf.2.2.2.2.1, c5, hren]; exact hret'.names) hloc hret'.axes hfree huni
    c1 c2 (fun e => by rw [e, List.length_nil] at l1; omega) (by have := hret.count; omega)
    (by have := hret.auxCount; omega) w4 w5 (by rw [← hncattrs]; exact hback.attrs) w2 hback.names w3 c3
  have hffi : a.ffi = o.FFI := by rw [p7, ← c4]; rfl
  have hds : mapRes (collectDict env.collect nc'.attrs) [a] = .ok [d] := by
    rw [mapRes, p4, ok_bind]
    rfl
  have hdict : ncDicts env args = .ok [d] := by
    unfold ncDicts
    rw [hopen]
    simp only [ok_bind]
    rw [hids, hexc, hreq, p1]
    unfold convertDicts
    rw [p2]
    simp only [ok_bind]
    rw [hds]
    rfl
  have hf := hfit d hdict
  have hdata : ∀ v ∈ a.main ++ a.aux, DataFits v := by
    rw [p5, p6]
    intro w hw
    obtain ⟨v, hv, hr⟩ := forall₂_mem_right w1 hw
    refine reopened_fits hr ?_
    rcases List.mem_append.1 hv with hv | hv
    · obtain ⟨i, hi⟩ := List.getElem?_of_mem hv
      exact ((C64_values g2).2 i v hi).2.2.2.1
    · obtain ⟨i, hi⟩ := List.getElem?_of_mem hv
      exact ((C64_aux g2).2 i v hi).2.2.2.1
  have hfull : ∀ v ∈ a.main, ∀ ax ∈ v.axes, ax.values ≠ [] := by
    rw [p5]
    intro w hw ax hx e
    obtain ⟨v, hv, hr⟩ := forall₂_mem_right w4 hw
    obtain ⟨i, hi⟩ := List.getElem?_of_mem hv
    obtain ⟨_, _, _, _, l, q1, q2⟩ := (C64_values g2).2 i v hi
    rw [(reopened_same hr).2.1] at hx
    have hm : ax.values ∈ v.axes.map XAxis.values := List.mem_map.2 ⟨ax, hx, rfl⟩
    rw [q2] at hm
    obtain ⟨y, hy, _⟩ := hret'.axes l q1 _ (List.mem_of_mem_take hm)
    rw [e] at hy
    cases hy
  have hkept : Kept a d := by
    have : a.ffi = 1001 ∨ a.ffi = 2010 ∨ a.ffi = 3010 ∨ a.ffi = 4010 := by
      rw [p7]
      unfold backFormat
      split
      · exact .inl rfl
      · omega
    rcases this with e | e | e
    · exact .inl e
    · exact .inr (.inr (.inr (.inr (.inl e))))
    · exact .inr (.inr (.inr (.inr (.inr ⟨e, hf.points (by rw [← hffi]; exact e)⟩))))
  obtain ⟨names, e1, e2, e3, e4, e5⟩ := run_holds fmt table env args hcd hdel ho hh hsz hnames hopen
    (passes := [a]) (ds := [d]) (by rw [hids, hexc, hreq, p1]; exact p2) hds
    (fun b hb hb' => by
      rw [List.mem_singleton.1 hb, p7] at hb'
      unfold backFormat at hb'
      split at hb' <;> omega)
    (fun i b d' hb hd' => by
      have : i = 0 := by
        have := (List.getElem?_eq_some_iff.1 hb).1
        simp at this
        omega
      subst this
      injection hb with hb
      injection hd' with hd'
      subst hb hd'
      exact ⟨hkept, hdata, hfull, hf.source, p8 (by rw [hffi]; rfl), hf.header⟩)
  generalize convertNCToNA (emitFile fmt table) env args = run at e1 e4 e5 ⊢
  have hlen : run.calls.length = 1 := by
    rw [← List.length_map (f := WriteCall.name), e4, e2]
    rfl
  obtain ⟨c, hc⟩ := List.length_eq_one_iff.1 hlen
  obtain ⟨out, o', t1, t2, t3, t4, d1, t5, t6⟩ := e5 0 a c rfl (by rw [hc]; rfl)
  have hcb : te.cb = tenv.cb := by rw [← ht]
  have hhp : te.hp = tenv.hp := by rw [← ht]
  have htime : te.isTime = tenv.isTime ∧ te.timeMatch = tenv.timeMatch ∧
      te.answers = (if na.timeWarning then some typed else none) := by rw [← ht]; exact ⟨rfl, rfl, rfl⟩
  injection t5 with t5
  subst t5
  have k1 : List.Forall₂ (Reopened env.collect.x.isNaN) r.vars a.main := by rw [p5]; exact w4
  have k2 : List.Forall₂ (Reopened env.collect.x.isNaN) r.aux a.aux := by rw [p6]; exact w5
  refine ⟨c, out, o', ?_, hc, t1, t2, t3, ?_, te, _, r, a, d, hren, hcb, htime, g2, k1, k2, p4, t6, t4, hhp, hattrs,
    by rw [← hncattrs]; exact hback.attrs, hvars⟩
  · rw [e1, ← e4, hc]
    rfl
  · rw [← hadd]
    exact same_numbers hret' g2 k1 k2 hffi t4

/-- C97, in part. A NASA Ames file is converted to NetCDF with `convertNAToNC`. The NetCDF file is opened by xarray,
which gives the variables back, and converted with `convertNCToNA`. Then one file is written, and it has the same
numbers as the first: format, values, missing values, auxiliary variables, axes, up to the number format. What is
missing: files of format 1010 come back as 1001 (C67), other formats cannot be converted (C66), names may become the same
(`C77_fails`), scale factors and names change (C64, C67). -/
theorem C97_partial (fmt : Str → Codec F) (table : String → Str) {cd : Codec F} {tenv : ToXEnv F} {typed : List Str}
    {naFile text ncName : Str} {na : NAToNCArgs F} {nc nc' : NCFile F} {o : Obj F}
    (hto : convertNAToNC cd tenv typed naFile text na = .ok (ncName, nc)) (hmain : na.mainVars = .all)
    (haux : na.auxVars = .all) (hattrs : (na.globalAttributes.map Prod.fst).Nodup)
    (hread : readFile cd 0 text = .ok o)
    (hcount : nc.vars.length = (varHeader o).NV.toNat + (Spec.auxCount o).toNat)
    (env : ApiEnv F) (args : NCToNAArgs F) (hret : Returnable tenv na.renameVariables env.collect.x o)
    (hfree : NamesFree nc.vars) (hopen : env.openNC args.ncFile = .ok nc')
    (hback : ReopenedFile env.collect.x.isNaN nc nc')
    (hids : args.varIds = none) (hexc : args.excludeVars = []) (hreq : args.requestedFFI = none)
    (hloc : LocalKnown env.collect.localNc)
    (huni : ∀ ax, ax.values ≠ [] → ∃ u, env.collect.x.uniform ax = .ok u)
    {q : F → F} (hcd : (fmt args.opts.floatFormat).Lawful q) (hdel : WsDelim args.opts.delimiter)
    (ho : args.opts.annotation = false) (hh : args.opts.noHeader = false) (hsz : args.opts.sizeLimit = none)
    (hnames : args.onlyNames = false)
    (hfit : ∀ d, ncDicts env args = .ok [d] → TripFits env args.naItems args.opts.delimiter o.FFI d) :
    ∃ c out o', (convertNCToNA (emitFile fmt table) env args).result = .ok [c.name] ∧
      (convertNCToNA (emitFile fmt table) env args).calls = [c] ∧ fileOf fmt table c = .ok out ∧ out.err = none ∧
      readFile (fmt args.opts.floatFormat) 0 out.text = .ok o' ∧ SameNumbers tenv.add env.collect.x q o o' := by
  obtain ⟨c, out, o', h1, h2, h3, h4, h5, h6, _⟩ := trip_core fmt table hto hmain haux hattrs hread hcount env args hret hfree
    hopen hback hids hexc hreq hloc huni hcd hdel ho hh hsz hnames hfit
  exact ⟨c, out, o', h1, h2, h3, h4, h5, h6⟩

/-! ### Concrete cases -/

namespace Ex

/-- A NetCDF file opened again: missing values come as `NaN` (77 here), the coordinate variable of the first axis comes
first, and whole numbers among the attributes come as something else. -/
def reopen (nc : NCFile Int) : NCFile Int :=
  { vars := ((nc.vars.head?.bind (fun v => v.axes.head?)).toList.map (fun ax =>
        { name := ax.name, axes := [ax], data := .lst (ax.values.map .val), naNumber := none, naAuxNumber := none,
          miss := none, attrs := [], encUnits := none })) ++
      nc.vars.map (fun v => { v with data := mapTree (fun y => if v.miss = some y then 77 else y) v.data }),
    attrs := nc.attrs.map (fun kv => (kv.1, match kv.2 with | .int n => .list [.int n] | x => x)) }

theorem reopen_file (nc : NCFile Int) (h : ((reopen nc).vars.map XVar.name).Nodup) :
    ReopenedFile Ex.gapX.isNaN nc (reopen nc) := by
  refine ⟨?_, h, _, ?_, List.sublist_append_right _ _, fun c hc => ?_⟩
  · show List.Forall₂ AttrReopened nc.attrs (nc.attrs.map _)
    rw [List.forall₂_map_right_iff]
    refine List.forall₂_same.2 fun kv _ => ⟨rfl, ?_⟩
    obtain ⟨k, v⟩ := kv
    cases v with
    | int n => exact .inr ⟨⟨n, rfl⟩, rfl⟩
    | _ => exact .inl rfl
  · rw [List.forall₂_map_right_iff]
    refine List.forall₂_same.2 fun v _ => ⟨_, fun y => ?_, rfl⟩
    by_cases e : v.miss = some y
    · exact .inr ⟨by rw [if_pos e]; rfl, e⟩
    · exact .inl (if_neg e)
  · rcases List.mem_append.1 hc with hc | hc
    · obtain ⟨ax, h1, rfl⟩ := List.mem_map.1 hc
      rw [Option.mem_toList, Option.bind_eq_some_iff] at h1
      obtain ⟨v, h1, h2⟩ := h1
      exact .inr ⟨⟨v, List.mem_of_mem_head? h1, ax, List.mem_of_mem_head? h2, rfl, rfl⟩, rfl⟩
    · exact .inl hc

/-- The text of a file, the NetCDF file made from it, and the run on this one, opened again. -/
def tripText (o : Obj Int) : Str := (o.write Nappy.Ex.env false).2.text
def tripNC (o : Obj Int) : Res (Str × NCFile Int) :=
  convertNAToNC intCodec Nappy.Ex.toXEnv [] "a.na".toList (tripText o) Nappy.Ex.toNCArgs
def tripApi (o : Obj Int) : ApiEnv Int :=
  { exApi with
    openNC := fun _ => match tripNC o with | .ok p => .ok (reopen p.2) | .error e => .error e
    collect := { Ex.collectEnv with x := Ex.gapX } }

/-- What has to be computed for the hypotheses of `C97_partial`. -/
def tripTest (o : Obj Int) (count : Nat) : Bool :=
  match tripNC o with
  | .ok (_, nc) => decide (nc.vars.length = count) && Ex.namesFreeB nc.vars &&
      decide (((reopen nc).vars.map XVar.name).Nodup) &&
      (match ncDicts (tripApi o) exArgs with
        | .ok [d] => Ex.fitsB d && (match prepareDict exConfig [] "    ".toList d with
          | .ok d' => Ex.headerB d'
          | _ => false)
        | _ => false)
  | _ => false

end Ex

/-- Two variables, both with a gap, and a variable on two axes with one on the first. -/
def Ex.gapFile : NA1001 Int := { Nappy.Ex.unit1001 with V := [[1, -9999, 3], [99, 5, 60]] }
def Ex.gapGrid : NA2010 Int :=
  { Nappy.Ex.unit2010 with A := [[99, 4]], V := [[.lst [.val 1, .val (-9999)], .lst [.val 3, .val 4]],
      [.lst [.val 5, .val 6], .lst [.val 7, .val 99]]] }

theorem Ex.trip_run {o o1 : Obj Int} {count : Nat} (ht : Ex.tripTest o count = true)
    (hr : readFile intCodec 0 (Ex.tripText o) = .ok o1)
    (hc : count = (varHeader o1).NV.toNat + (Spec.auxCount o1).toNat) (h10 : o1.FFI = 1001 ∨ o1.FFI = 2010)
    (hret : Returnable Nappy.Ex.toXEnv [] Ex.gapX o1) :
    ∃ c out o', (convertNCToNA (emitFile (fun _ => intCodec) exTable) (Ex.tripApi o) exArgs).result = .ok [c.name] ∧
      fileOf (fun _ => intCodec) exTable c = .ok out ∧ readFile intCodec 0 out.text = .ok o' ∧
      SameNumbers (· + ·) Ex.gapX id o1 o' := by
  unfold Ex.tripTest at ht
  split at ht
  · rename_i name nc hnc
    simp only [Bool.and_eq_true, decide_eq_true_eq] at ht
    obtain ⟨⟨⟨t1, t2⟩, t3⟩, t4⟩ := ht
    have hopen : (Ex.tripApi o).openNC exArgs.ncFile = .ok (Ex.reopen nc) := by
      simp only [Ex.tripApi, hnc]
    obtain ⟨c, out, o', r1, _, r3, _, r5, r6⟩ := C97_partial (fun _ => intCodec) exTable (nc := nc) hnc rfl rfl
      List.nodup_nil hr (by omega) (Ex.tripApi o) exArgs hret (Ex.namesFree_of t2) hopen (Ex.reopen_file nc t3) rfl rfl
      rfl (by intro k h; cases h) (fun _ _ => ⟨true, rfl⟩) (q := id) Nappy.Ex.intCodec_lawful (by decide) rfl rfl rfl rfl
      (fun d hd => by
        rw [hd] at t4
        simp only [Bool.and_eq_true] at t4
        have hs := Ex.textsFit_of t4.1
        refine ⟨⟨hs.dates, hs.names, hs.comments⟩, ?_, fun e => by omega⟩
        have t5 := t4.2
        split at t5
        · exact ⟨_, by assumption, Ex.header_of t5⟩
        · cases t5)
    exact ⟨c, out, o', r1, r3, r5, r6⟩
  · cases ht

theorem Ex.unit_scales {l : List Int} (h : ∀ s ∈ l, s = 1) : UnitScales Nappy.Ex.toXEnv.mul l := by
  intro s hs x
  rw [h s hs]
  exact Int.mul_one x

/-- The hypotheses of `C97_partial` are met by a file with one axis. -/
example : ∃ o1 c out o', readFile intCodec 0 (Ex.tripText (.o1001 Ex.gapFile)) = .ok o1 ∧
    (convertNCToNA (emitFile (fun _ => intCodec) exTable) (Ex.tripApi (.o1001 Ex.gapFile)) exArgs).result
      = .ok [c.name] ∧
    fileOf (fun _ => intCodec) exTable c = .ok out ∧ readFile intCodec 0 out.text = .ok o' ∧
    SameNumbers (· + ·) Ex.gapX id o1 o' := by
  have hw : Wf1001 Ex.gapFile :=
    { Nappy.Ex.wf1001 with vars := ⟨by decide, rfl, rfl, rfl, by decide⟩, data := ⟨rfl, by decide⟩ }
  obtain ⟨_, n, hr⟩ := readFile_written (env := Nappy.Ex.env) Nappy.Ex.intCodec_lawful rfl Nappy.Ex.env_delim
    (o := .o1001 Ex.gapFile) hw
  obtain ⟨r', e, hw'⟩ := wf1001_readForm id n hw
  have hr : readFile intCodec 0 (Ex.tripText (.o1001 Ex.gapFile)) = .ok (readForm id n (.o1001 Ex.gapFile)) := hr
  refine ⟨_, (Ex.trip_run (count := 2) (by decide +kernel) hr rfl (.inl rfl) ⟨?_, ?_, ?_, ?_, ?_, ?_, ?_⟩).imp
    fun c ⟨out, o', h⟩ => ⟨out, o', hr, h⟩⟩
  · rw [e]; exact .one _ hw'
  · exact Ex.unit_scales (show ∀ s ∈ (varHeader (.o1001 Ex.gapFile)).VSCAL, s = 1 by decide)
  · rintro l hl xs hx
    have hl : l = [[0, 5, 12]] := hl
    subst hl
    rw [List.mem_singleton.1 hx]
    exact ⟨0, by decide, by decide⟩
  · show ∀ col ∈ [[1, -9999, 3], [99, 5, 60]], NoNaN Ex.gapX.isNaN col
    unfold NoNaN; decide
  · exact (show (2 : Int) ≤ 1000 by decide)
  · exact (show (0 : Int) ≤ 1000 by decide)
  · exact ⟨(show ∀ s ∈ Ex.gapFile.XNAME, s ≠ [] by decide), (show ∀ s ∈ Ex.gapFile.v.VNAME ++ [],
      (varAndUnits Nappy.Ex.toXEnv.cb s).1 ≠ [] by decide +kernel), by intro kv h; cases h⟩

theorem Ex.gapGrid_read : ∃ o1, readFile intCodec 0 (Ex.tripText (.o2010 Ex.gapGrid)) = .ok o1 ∧
    3 = (varHeader o1).NV.toNat + (Spec.auxCount o1).toNat ∧ o1.FFI = 2010 ∧
    (varHeader o1).VNAME = Ex.gapGrid.v.VNAME ∧ auxNames o1 = Ex.gapGrid.aux.ANAME ∧
    (axisHeader o1).2 = Ex.gapGrid.XNAME ∧ Returnable Nappy.Ex.toXEnv [] Ex.gapX o1 := by
  have hs : ∀ col ∈ Ex.gapGrid.V, ∀ t ∈ col, Shaped (Ex.gapGrid.NX.map Int.toNat) t := by
    simp [Ex.gapGrid, Nappy.Ex.unit2010, Nappy.Ex.d2010, Shaped]
  have hw : Wf2010 Ex.gapGrid :=
    { Nappy.Ex.wf2010 with vars := ⟨by decide, rfl, rfl, rfl, by decide⟩, data := ⟨rfl, by decide⟩,
                           aux_data := ⟨rfl, by decide⟩, shape := hs }
  obtain ⟨_, n, hr⟩ := readFile_written (env := Nappy.Ex.env) Nappy.Ex.intCodec_lawful rfl Nappy.Ex.env_delim
    (o := .o2010 Ex.gapGrid) ⟨hw, rfl⟩
  obtain ⟨r', e, hw'⟩ := wf2010_readForm id n hw
  have hr : readFile intCodec 0 (Ex.tripText (.o2010 Ex.gapGrid)) = .ok (readForm id n (.o2010 Ex.gapGrid)) := hr
  refine ⟨_, hr, rfl, rfl, rfl, rfl, rfl, ?_, ?_, ?_, ?_, ?_, ?_, ?_⟩
  · rw [e]; exact .more _ hw'.1
  · exact Ex.unit_scales (show ∀ s ∈ Ex.gapGrid.v.VSCAL ++ Ex.gapGrid.aux.ASCAL, s = 1 by decide)
  · rintro l ⟨s, h1, rfl⟩ xs hx
    injection h1 with h1
    subst h1
    have hx' : xs ∈ [[0, 1], [10, 20]] := hx
    clear hx
    revert xs
    unfold HasNumber
    decide
  · show ∀ col ∈ [[1, -9999, 3, 4], [5, 6, 7, 99], [99, 4]], NoNaN Ex.gapX.isNaN col
    unfold NoNaN; decide
  · exact (show (2 : Int) ≤ 1000 by decide)
  · exact (show (1 : Int) ≤ 1000 by decide)
  · exact ⟨(show ∀ s ∈ Ex.gapGrid.XNAME, s ≠ [] by decide), (show ∀ s ∈ Ex.gapGrid.v.VNAME ++ Ex.gapGrid.aux.ANAME,
      (varAndUnits Nappy.Ex.toXEnv.cb s).1 ≠ [] by decide +kernel), by intro kv h; cases h⟩

/-- And by a file with two axes and an auxiliary variable. -/
example : ∃ o1 c out o', readFile intCodec 0 (Ex.tripText (.o2010 Ex.gapGrid)) = .ok o1 ∧
    (convertNCToNA (emitFile (fun _ => intCodec) exTable) (Ex.tripApi (.o2010 Ex.gapGrid)) exArgs).result
      = .ok [c.name] ∧
    fileOf (fun _ => intCodec) exTable c = .ok out ∧ readFile intCodec 0 out.text = .ok o' ∧
    SameNumbers (· + ·) Ex.gapX id o1 o' := by
  obtain ⟨o1, h1, h2, h3, _, _, _, h4⟩ := Ex.gapGrid_read
  exact ⟨o1, (Ex.trip_run (by decide +kernel) h1 h2 (.inr h3) h4).imp fun c ⟨out, o', h⟩ => ⟨out, o', h1, h⟩⟩

/-- A file whose two variables have names that differ in capitals and units only. -/
def Ex.likeNames : Obj Int :=
  .o1001 { Ex.gapFile with v := { Ex.gapFile.v with VNAME := ["Temp (C)".toList, "TEMP (K)".toList] } }

/-- What has to be computed for `C97_fails`. -/
def Ex.likeTest : Bool :=
  match Ex.tripNC Ex.likeNames, readFile intCodec 0 (Ex.tripText Ex.likeNames) with
  | .ok p, .ok o => decide (((Ex.reopen p.2).vars.map XVar.name).Nodup) && decide ((varHeader o).NV = 2) &&
      (match (convertNCToNA (emitFile (fun _ => intCodec) exTable) (Ex.tripApi Ex.likeNames) exArgs).calls with
        | [c] => (match fileOf (fun _ => intCodec) exTable c with
          | .ok out => (match readFile intCodec 0 out.text with
            | .ok o' => decide ((varHeader o').NV = 1)
            | _ => false)
          | _ => false)
        | _ => false)
  | _, _ => false

/-- C97 fails: a file with two variables comes back with one, if their names differ in capitals and units only. -/
theorem C97_fails : ∃ ncName nc o c out o',
    convertNAToNC intCodec Nappy.Ex.toXEnv [] "a.na".toList (Ex.tripText Ex.likeNames) Nappy.Ex.toNCArgs
      = .ok (ncName, nc) ∧
    ReopenedFile Ex.gapX.isNaN nc (Ex.reopen nc) ∧
    (Ex.tripApi Ex.likeNames).openNC exArgs.ncFile = .ok (Ex.reopen nc) ∧
    readFile intCodec 0 (Ex.tripText Ex.likeNames) = .ok o ∧
    (convertNCToNA (emitFile (fun _ => intCodec) exTable) (Ex.tripApi Ex.likeNames) exArgs).calls = [c] ∧
    fileOf (fun _ => intCodec) exTable c = .ok out ∧ readFile intCodec 0 out.text = .ok o' ∧
    (varHeader o).NV = 2 ∧ (varHeader o').NV = 1 := by
  have ht : Ex.likeTest = true := by decide +kernel
  unfold Ex.likeTest at ht
  split at ht
  · rename_i p o h1 h2
    simp only [Bool.and_eq_true, decide_eq_true_eq] at ht
    obtain ⟨⟨t1, t2⟩, t3⟩ := ht
    split at t3
    · rename_i c h3
      split at t3
      · rename_i out h4
        split at t3
        · rename_i o' h5
          exact ⟨p.1, p.2, o, c, out, o', h1, Ex.reopen_file p.2 t1, by simp only [Ex.tripApi, h1], h2, h3, h4, h5, t2,
            of_decide_eq_true t3⟩
        · cases t3
      · cases t3
    · cases t3
  · cases ht

end Nappy.Props
