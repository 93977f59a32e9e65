import Verif.Spec.HeaderBack
import Verif.Props.Settle

/-! Property C111: the common header on the way to NetCDF and back. -/

namespace Nappy.Props

open Nappy Spec

variable {F : Type}

theorem reopened_value {attrs globals : Dict (PyVal F)}
    (hg : List.Forall₂ AttrReopened (attrs.map (fun kv => (kv.1, fixInts kv.2))) globals) {k : String} {v : PyVal F}
    (h : dictGet? attrs k = some v) (hv : fixInts v = v) (hi : ∀ n, v ≠ .int n) : dictGet? globals k = some v := by
  induction attrs generalizing globals with
  | nil => cases h
  | cons kv l ih =>
    cases hg with
    | cons h1 h2 =>
      rename_i kv' l'
      obtain ⟨k1, v1⟩ := kv
      obtain ⟨k2, v2⟩ := kv'
      obtain ⟨e, h1⟩ := h1
      have e : k2 = k1 := e
      subst e
      by_cases hk : k2 = k
      · simp only [dictGet?, if_pos hk, Option.some.injEq] at h ⊢
        subst h
        rcases h1 with h1 | ⟨⟨n, h1⟩, _⟩
        · exact h1.trans hv
        · exact absurd (hv.symm.trans h1) (hi n)
      · simp only [dictGet?, if_neg hk] at h ⊢
        exact ih h2 h

theorem fixInts_str {s : Str} (h : s ≠ []) : fixInts (.str s : PyVal F) = .str s := by
  cases s with
  | nil => exact absurd rfl h
  | cons c t => rfl

/-- C111, in part: where the data come from is still told by the file that comes back. What is missing: the date of
revision and the volume numbers are lost, and the first date is computed anew if the first axis is time. -/
theorem C111_partial (fmt : Str → Codec F) (table : String → Str) {cd : Codec F} {tenv : ToXEnv F} {typed : List Str}
    {naFile text ncName : Str} {na : NAToNCArgs F} {nc nc' : NCFile F} {o : Obj F}
    (hto : convertNAToNC cd tenv typed naFile text na = .ok (ncName, nc)) (hmain : na.mainVars = .all)
    (haux : na.auxVars = .all) (hattrs : (na.globalAttributes.map Prod.fst).Nodup)
    (hread : readFile cd 0 text = .ok o)
    (hcount : nc.vars.length = (varHeader o).NV.toNat + (Spec.auxCount o).toNat)
    (env : ApiEnv F) (args : NCToNAArgs F) (hret : Returnable tenv na.renameVariables env.collect.x o)
    (hfree : NamesFree nc.vars) (hopen : env.openNC args.ncFile = .ok nc')
    (hback : ReopenedFile env.collect.x.isNaN nc nc')
    (hids : args.varIds = none) (hexc : args.excludeVars = []) (hreq : args.requestedFFI = none)
    (hloc : LocalKnown env.collect.localNc)
    (huni : ∀ ax, ax.values ≠ [] → ∃ u, env.collect.x.uniform ax = .ok u)
    {q : F → F} (hcd : (fmt args.opts.floatFormat).Lawful q) (hdel : WsDelim args.opts.delimiter)
    (ho : args.opts.annotation = false) (hh : args.opts.noHeader = false) (hsz : args.opts.sizeLimit = none)
    (hnames : args.onlyNames = false)
    (hfit : ∀ d, ncDicts env args = .ok [d] → TripFits env args.naItems args.opts.delimiter o.FFI d)
    (horg : ¬ Occurs "(ONAME from NASA Ames file);".toList o.common.ORG) :
    ∃ c out o', (convertNCToNA (emitFile fmt table) env args).calls = [c] ∧ fileOf fmt table c = .ok out ∧
      readFile (fmt args.opts.floatFormat) 0 out.text = .ok o' ∧
      HeaderBack (overridden env args) env.collect.today
        (∀ v ∈ nc.vars, ∀ ax ∈ v.axes.head?, env.collect.isTime ax = false) o.common o'.common := by
  obtain ⟨c, out, o', h1, h2, h3, h4, h5, h6, te, user, r, a, d, k1, k2, k0, k3, k4, k5, k6, k7, k8, k9, k10, k11, k12⟩ :=
    trip_core fmt table hto hmain haux hattrs hread hcount env args hret hfree hopen hback hids hexc hreq hloc huni hcd
      hdel ho hh hsz hnames hfit
  have hw : WfCommon o.common := by
    cases hret.regular with
    | one f hw => exact hw.common
    | more f hw => exact hw.common
  obtain ⟨gn, _⟩ := toXarray_comment k3 k10
  obtain ⟨n1, _⟩ := dictGet?_reopened k11
  have gn' : (nc'.attrs.map Prod.fst).Nodup := by rw [n1]; exact gn
  obtain ⟨f1, f2, f3, _, _, _, _, f8⟩ := C63_fails k3 k10
  have g1 := reopened_value k11 f1 (fixInts_str hw.mname.2.1) (by simp)
  have g2 := reopened_value k11 f2 (fixInts_str hw.sname.2.1) (by simp)
  have g3 := reopened_value k11 f3 (fixInts_str (by simp)) (by simp)
  have g8 := reopened_value k11 f8 rfl (by simp [pyInts])
  obtain ⟨e1, e2, e3, e4⟩ := collected_header k6 gn' g1 g2 g3 (fun hm => (hw.oname.1.1.1 _ hm).1 rfl)
    (fun hm => (hw.org.1.1.1 _ hm).1 rfl) hw.org.1.1.2.1 horg
  obtain ⟨v1, v2, v3⟩ := C61_volumes_fails k6
  have same : ∀ k : String, (k ≠ "NSCOML" ∧ k ≠ "NNCOML" ∧ k ≠ "NCOM") → k ∉ overridden env args →
      dictGet? c.dict k = dictGet? d k := by
    intro k hk hn
    exact prepareDict_name k7 hk (fun hm => hn (List.mem_append_left _ hm)) (fun hm => hn (List.mem_append_right _ hm))
  have hstr : ∀ (k : String) (s s' : Str), (k ≠ "NSCOML" ∧ k ≠ "NNCOML" ∧ k ≠ "NCOM") → k ∉ overridden env args →
      dictGet? d k = some (.str s) → dictGet? c.dict k = some (.str s') → s' = s := by
    intro k s s' hk hn hd hd'
    rw [same k hk hn, hd] at hd'
    injection hd' with e
    injection e with e
    exact e.symm
  have hints : ∀ (k : String) (l l' : List Int), (k ≠ "NSCOML" ∧ k ≠ "NNCOML" ∧ k ≠ "NCOM") → k ∉ overridden env args →
      dictGet? d k = some (pyInts l) → dictGet? c.dict k = some (pyInts l') → l' = l := by
    intro k l l' hk hn hd hd'
    rw [same k hk hn, hd] at hd'
    exact (pyInts_inj (Option.some.inj hd')).symm
  have hvol : ∀ (k : String) (n : Int), k ∉ textKeys → dictGet? d k = some (.int 1) →
      dictGet? c.dict k = some (.int n) → n = 1 := by
    intro k n hk hd hd'
    rw [prepareDict_frame k7 k hk, hd] at hd'
    injection hd' with e
    injection e with e
    exact e.symm
  have hd := k8.header
  refine ⟨c, out, o', h2, h3, h5, ?_, ?_, ?_, ?_, ?_, ?_, ?_, ?_⟩
  · exact fun hn => hstr "ONAME" _ _ (by decide) hn e1 (hd ("ONAME", .str o'.common.ONAME) (by simp))
  · exact fun hn => hstr "ORG" _ _ (by decide) hn e2 (hd ("ORG", .str o'.common.ORG) (by simp))
  · exact fun hn => hstr "SNAME" _ _ (by decide) hn e3 (hd ("SNAME", .str o'.common.SNAME) (by simp))
  · exact fun hn => hstr "MNAME" _ _ (by decide) hn e4 (hd ("MNAME", .str o'.common.MNAME) (by simp))
  · intro hn ht
    refine hints "DATE" _ _ (by decide) hn (collected_date k6 gn' g8 fun w hw ax hx => ?_)
      (hd ("DATE", pyInts o'.common.DATE) (by simp))
    obtain ⟨v, hv, hr⟩ := forall₂_mem_right k4 hw
    rw [(reopened_same hr).2.1] at hx
    exact ht v (by rw [k12]; exact List.mem_append_left _ hv) ax hx
  · exact fun hn => hints "RDATE" _ _ (by decide) hn v3 (hd ("RDATE", pyInts o'.common.RDATE) (by simp))
  · exact hvol "IVOL" _ (by decide) v1 (hd ("IVOL", .int o'.common.IVOL) (by simp))
  · exact hvol "NVOL" _ (by decide) v2 (hd ("NVOL", .int o'.common.NVOL) (by simp))

/-- C111 for one of many trips. -/
theorem trip_header {fmt : Str → Codec F} {table : String → Str} {hp : Headings} {add : F → F → F} {x : XEnv F}
    {q : F → F} {o o' : Obj F} (h : Trip fmt table hp add x q o o')
    (horg : ¬ Occurs "(ONAME from NASA Ames file);".toList o.common.ORG) :
    o'.common.ONAME = o.common.ONAME ∧ o'.common.SNAME = o.common.SNAME ∧ o'.common.MNAME = o.common.MNAME ∧
      o'.common.IVOL = 1 ∧ o'.common.NVOL = 1 := by
  cases h with
  | go hread hto hopen hback hcalls hfile hread' hadd hx hcb hren hmain haux hattrs hcount hret hfree hids hexc hreq hloc
      huni hcd hdel ho hh hsz hnames hfit hover hhp =>
    obtain ⟨c1, out1, o1, a2, a3, a5, a6⟩ := C111_partial fmt table hto hmain haux hattrs hread hcount _ _ hret hfree
      hopen hback hids hexc hreq hloc huni hcd hdel ho hh hsz hnames hfit horg
    rw [hcalls] at a2
    injection a2 with a2
    subst a2
    rw [hfile] at a3
    injection a3 with a3
    subst a3
    rw [hread'] at a5
    injection a5 with a5
    subst a5
    exact ⟨a6.originator (fun hm => (hover _ hm).2.2.2.2.1 rfl), a6.source (fun hm => (hover _ hm).2.2.2.2.2.1 rfl),
      a6.mission (fun hm => (hover _ hm).2.2.2.2.2.2 rfl), a6.volumes⟩

/-- C111 after any number of trips, in part: originator, source and mission are still those of the first file. What is
missing: the volume numbers are 1. -/
theorem C111_trips_partial {fmt : Str → Codec F} {table : String → Str} {hp : Headings} {add : F → F → F} {x : XEnv F}
    {q : F → F} {o : Nat → Obj F} {m : Nat} (htrip : ∀ k < m, Trip fmt table hp add x q (o k) (o (k + 1)))
    (horg : ∀ k < m, ¬ Occurs "(ONAME from NASA Ames file);".toList (o k).common.ORG) :
    ∀ k < m, (o (k + 1)).common.ONAME = (o 0).common.ONAME ∧ (o (k + 1)).common.SNAME = (o 0).common.SNAME ∧
      (o (k + 1)).common.MNAME = (o 0).common.MNAME ∧ (o (k + 1)).common.IVOL = 1 ∧ (o (k + 1)).common.NVOL = 1 := by
  intro k hk
  induction k with
  | zero => exact trip_header (htrip 0 hk) (horg 0 hk)
  | succ k ih =>
    obtain ⟨i1, i2, i3, _⟩ := ih (by omega)
    obtain ⟨h1, h2, h3, h4⟩ := trip_header (htrip (k + 1) hk) (horg (k + 1) hk)
    exact ⟨h1.trans i1, h2.trans i2, h3.trans i3, h4⟩

/-! ### Concrete cases -/

/-- What has to be computed for `C111_fails`. -/
def Ex.originB : Bool :=
  match readFile intCodec 0 (Ex.tripText (.o2010 Ex.gapGrid)) with
  | .ok o => decide (o.common.ORG.length < 20) && decide (o.common.RDATE ≠ (Ex.tripApi (.o2010 Ex.gapGrid)).collect.today)
      && decide (o.common.NVOL = 13)
  | .error _ => false

theorem Ex.trip_header {o o1 : Obj Int} {count : Nat} (ht : Ex.tripTest o count = true)
    (hr : readFile intCodec 0 (Ex.tripText o) = .ok o1)
    (hc : count = (varHeader o1).NV.toNat + (Spec.auxCount o1).toNat) (h10 : o1.FFI = 1001 ∨ o1.FFI = 2010)
    (hret : Returnable Nappy.Ex.toXEnv [] Ex.gapX o1)
    (horg : ¬ Occurs "(ONAME from NASA Ames file);".toList o1.common.ORG) :
    ∃ name nc c out o', Ex.tripNC o = .ok (name, nc) ∧
      (convertNCToNA (emitFile (fun _ => intCodec) exTable) (Ex.tripApi o) exArgs).calls = [c] ∧
      fileOf (fun _ => intCodec) exTable c = .ok out ∧ readFile intCodec 0 out.text = .ok o' ∧
      HeaderBack (overridden (Ex.tripApi o) exArgs) (Ex.tripApi o).collect.today
        (∀ v ∈ nc.vars, ∀ ax ∈ v.axes.head?, (Ex.tripApi o).collect.isTime ax = false) o1.common o'.common := by
  unfold Ex.tripTest at ht
  split at ht
  · rename_i name nc hnc
    simp only [Bool.and_eq_true, decide_eq_true_eq] at ht
    obtain ⟨⟨⟨t1, t2⟩, t3⟩, t4⟩ := ht
    have hopen : (Ex.tripApi o).openNC exArgs.ncFile = .ok (Ex.reopen nc) := by
      simp only [Ex.tripApi, hnc]
    obtain ⟨c, out, o', r1, r3, r5, r6⟩ := C111_partial (fun _ => intCodec) exTable (nc := nc) hnc rfl rfl
      List.nodup_nil hr (by omega) (Ex.tripApi o) exArgs hret (Ex.namesFree_of t2) hopen (Ex.reopen_file nc t3) rfl rfl
      rfl (by intro k h; cases h) (fun _ _ => ⟨true, rfl⟩) (q := id) Nappy.Ex.intCodec_lawful (by decide) rfl rfl rfl rfl
      (fun d hd => by
        rw [hd] at t4
        simp only [Bool.and_eq_true] at t4
        have hs := Ex.textsFit_of t4.1
        refine ⟨⟨hs.dates, hs.names, hs.comments⟩, ?_, fun e => by omega⟩
        have t5 := t4.2
        split at t5
        · exact ⟨_, by assumption, Ex.header_of t5⟩
        · cases t5) horg
    exact ⟨name, nc, c, out, o', hnc, r1, r3, r5, r6⟩
  · cases ht

/-- C111 is false: the hypotheses of `C111_partial` are met by a file with two axes and an auxiliary variable; those who
made the data come back with it, but the date of revision and the volume numbers do not. -/
theorem C111_fails : ∃ o1 c out o', readFile intCodec 0 (Ex.tripText (.o2010 Ex.gapGrid)) = .ok o1 ∧
    (convertNCToNA (emitFile (fun _ => intCodec) exTable) (Ex.tripApi (.o2010 Ex.gapGrid)) exArgs).calls = [c] ∧
    fileOf (fun _ => intCodec) exTable c = .ok out ∧ readFile intCodec 0 out.text = .ok o' ∧
    o'.common.ONAME = o1.common.ONAME ∧ o'.common.SNAME = o1.common.SNAME ∧ o'.common.MNAME = o1.common.MNAME ∧
    o'.common.DATE = o1.common.DATE ∧ o'.common.RDATE ≠ o1.common.RDATE ∧ o'.common.NVOL ≠ o1.common.NVOL := by
  obtain ⟨o1, h1, h2, h3, _, _, _, h6⟩ := Ex.gapGrid_read
  have hB : Ex.originB = true := by decide +kernel
  unfold Ex.originB at hB
  rw [h1] at hB
  simp only [Bool.and_eq_true, decide_eq_true_eq] at hB
  obtain ⟨⟨b1, b2⟩, b3⟩ := hB
  obtain ⟨_, _, c, out, o', _, k1, k2, k3, k⟩ := Ex.trip_header (by decide +kernel) h1 h2 (.inr h3) h6 (by
    rintro ⟨x, y, e⟩
    have e := congrArg List.length e
    simp only [List.length_append, String.length_toList] at e
    have : "(ONAME from NASA Ames file);".length = 28 := by decide
    omega)
  have hn : ∀ s : String, s ≠ "ORG" → s ∉ overridden (Ex.tripApi (.o2010 Ex.gapGrid)) exArgs :=
    fun s hs hm => hs (List.mem_singleton.1 (show s ∈ ["ORG"] from hm))
  refine ⟨o1, c, out, o', h1, k1, k2, k3, k.originator (hn _ (by decide)), k.source (hn _ (by decide)),
    k.mission (hn _ (by decide)), k.date (hn _ (by decide)) (fun _ _ _ _ => rfl), ?_, ?_⟩
  · rw [k.revised (hn _ (by decide))]
    exact Ne.symm b2
  · rw [k.volumes.2, b3]
    decide

/-- A file whose organisation holds the mark that nappy puts behind the originator. -/
def Ex.markedOrg : Obj Int :=
  .o2010 { Ex.gapGrid with
    c := { Ex.gapGrid.c with ORG := "RAL (ONAME from NASA Ames file); and others".toList } }

/-- What has to be computed for `C111_mark_fails`. -/
def Ex.markedTest : Bool :=
  match readFile intCodec 0 (Ex.tripText Ex.markedOrg) with
  | .ok o => decide (o.common.ONAME = "De Rudder".toList)
  | .error _ => false

/-- C111 fails for an organisation that holds the mark: part of it becomes part of the originator. -/
theorem C111_mark_fails : (∃ o1, readFile intCodec 0 (Ex.tripText Ex.markedOrg) = .ok o1 ∧
      o1.common.ONAME = "De Rudder".toList) ∧
    ∃ c out o', (convertNCToNA (emitFile (fun _ => intCodec) exTable) (Ex.tripApi Ex.markedOrg) exArgs).calls = [c] ∧
      fileOf (fun _ => intCodec) exTable c = .ok out ∧ readFile intCodec 0 out.text = .ok o' ∧
      o'.common.ONAME = "De Rudder (ONAME from NASA Ames file); RAL".toList := by
  constructor
  · have h : Ex.markedTest = true := by decide +kernel
    unfold Ex.markedTest at h
    split at h
    · exact ⟨_, by assumption, of_decide_eq_true h⟩
    · cases h
  · have h : Ex.backTest Ex.markedOrg
        (fun o' => decide (o'.common.ONAME = "De Rudder (ONAME from NASA Ames file); RAL".toList)) = true := by
      decide +kernel
    unfold Ex.backTest at h
    split at h
    · rename_i c hc
      split at h
      · rename_i out ho
        split at h
        · exact ⟨c, out, _, hc, ho, by assumption, of_decide_eq_true h⟩
        · cases h
      · cases h
    · cases h

end Nappy.Props
