import Verif.Props.HeaderBack
import Verif.Props.Attrs

/-! Property C111: what is still told of the date of revision. -/

namespace Nappy.Props

open Nappy Spec

variable {F : Type}

/-- The line before the first line feed is the first of the lines. -/
theorem linesOf_first {A t first : Str} {more : List Str} (hA : '\n' ∉ A) (h : LinesOf (A ++ '\n' :: t) (first :: more)) :
    first = A := by
  obtain ⟨_, h1, h2⟩ := h
  have hf := h1 first List.mem_cons_self
  have key : ∀ (B : Str), '\n' ∉ B → ∀ u, (B ++ '\n' :: u).takeWhile (· ≠ '\n') = B := by
    intro B hB u
    rw [List.takeWhile_append_of_pos (fun c hc => by simpa using fun e : c = '\n' => hB (e ▸ hc))]
    simp
  cases more with
  | nil =>
    have h2 : first = A ++ '\n' :: t := h2
    exact absurd (h2 ▸ List.mem_append_right A List.mem_cons_self) hf
  | cons x xs =>
    have h2 : first ++ '\n' :: join ['\n'] (x :: xs) = A ++ '\n' :: t := by
      rw [← h2]
      simp [join]
    have := congrArg (List.takeWhile (· ≠ '\n')) h2
    rwa [key _ hf, key _ hA] at this

/-- The line on the date of revision is a line, and not blank at the ends. -/
theorem revised_line {Y M D : Str} (hdig : ∀ c ∈ Y ++ M ++ D, c.isDigit = true) :
    '\n' ∉ Y ++ "-".toList ++ M ++ "-".toList ++ D ++ " - NASA Ames File created/revised.".toList ∧
      '-' ∈ Y ++ "-".toList ++ M ++ "-".toList ++ D ++ " - NASA Ames File created/revised.".toList ∧
      Trimmed (Y ++ "-".toList ++ M ++ "-".toList ++ D ++ " - NASA Ames File created/revised.".toList) := by
  have hno : ∀ ch ∈ Y ++ "-".toList ++ M ++ "-".toList ++ D ++ " - NASA Ames File created/revised.".toList,
      ch.isDigit = true ∨ ch ∈ " - NASA Ames File created/revised.".toList := by
    intro ch hc
    simp only [List.mem_append] at hc hdig
    rcases hc with ((((hc | hc) | hc) | hc) | hc) | hc
    · exact .inl (hdig ch (.inl (.inl hc)))
    · refine .inr ?_
      rw [show "-".toList = ['-'] by decide, List.mem_singleton] at hc
      subst hc
      decide
    · exact .inl (hdig ch (.inl (.inr hc)))
    · refine .inr ?_
      rw [show "-".toList = ['-'] by decide, List.mem_singleton] at hc
      subst hc
      decide
    · exact .inl (hdig ch (.inr hc))
    · exact .inr hc
  generalize hA : Y ++ "-".toList ++ M ++ "-".toList ++ D ++ " - NASA Ames File created/revised.".toList = A at hno
  have hAn : '\n' ∉ A := by
    intro hm
    rcases hno _ hm with h | h
    · revert h; decide
    · revert h; decide
  have hsp : ∀ ch : Char, ch.isDigit = true → isSpace ch = false := by
    intro ch hc
    have h : 48 ≤ ch.toNat ∧ ch.toNat ≤ 57 := by
      simp only [Char.isDigit, Bool.and_eq_true, decide_eq_true_eq] at hc
      exact ⟨hc.1, hc.2⟩
    unfold isSpace
    simp only [Bool.or_eq_false_iff, Bool.and_eq_false_iff, decide_eq_false_iff_not, beq_eq_false_iff_ne]
    omega
  refine ⟨hAn, hA ▸ List.mem_append_right _ (by decide), ?_⟩
  refine ⟨fun ch t et => ?_, fun b ch et => ?_⟩
  · rw [et] at hA
    cases Y with
    | nil =>
      have : '-' = ch := by
        simp only [List.nil_append, show "-".toList = ['-'] by decide, List.cons_append] at hA
        injection hA
      subst this
      decide
    | cons y0 Y' =>
      have e : y0 = ch := by
        simp only [List.cons_append] at hA
        injection hA
      subst e
      exact hsp _ (hdig _ (by simp))
  · rw [et, show " - NASA Ames File created/revised.".toList = " - NASA Ames File created/revised".toList ++ ['.'] by
      decide, ← List.append_assoc] at hA
    have := (List.append_inj_right' hA rfl)
    injection this with this
    subst this
    decide

/-- C111 on the date of revision: it is lost as a date, but a line of the normal comments still tells it. -/
theorem C111_history (fmt : Str → Codec F) (table : String → Str) {cd : Codec F} {tenv : ToXEnv F} {typed : List Str}
    {naFile text ncName : Str} {na : NAToNCArgs F} {nc nc' : NCFile F} {o : Obj F}
    (hto : convertNAToNC cd tenv typed naFile text na = .ok (ncName, nc)) (hmain : na.mainVars = .all)
    (haux : na.auxVars = .all) (hattrs : (na.globalAttributes.map Prod.fst).Nodup)
    (hread : readFile cd 0 text = .ok o)
    (hcount : nc.vars.length = (varHeader o).NV.toNat + (Spec.auxCount o).toNat)
    (env : ApiEnv F) (args : NCToNAArgs F) (hret : Returnable tenv na.renameVariables env.collect.x o)
    (hfree : NamesFree nc.vars) (hopen : env.openNC args.ncFile = .ok nc')
    (hback : ReopenedFile env.collect.x.isNaN nc nc')
    (hids : args.varIds = none) (hexc : args.excludeVars = []) (hreq : args.requestedFFI = none)
    (hloc : LocalKnown env.collect.localNc)
    (huni : ∀ ax, ax.values ≠ [] → ∃ u, env.collect.x.uniform ax = .ok u)
    {q : F → F} (hcd : (fmt args.opts.floatFormat).Lawful q) (hdel : WsDelim args.opts.delimiter)
    (ho : args.opts.annotation = false) (hh : args.opts.noHeader = false) (hsz : args.opts.sizeLimit = none)
    (hnames : args.onlyNames = false)
    (hfit : ∀ d, ncDicts env args = .ok [d] → TripFits env args.naItems args.opts.delimiter o.FFI d)
    (hover : "NCOM" ∉ overridden env args) (hshow : ∀ s, env.collect.show_ (.str s) = s)
    (hs : '\n' ∉ env.collect.stamp) (hv : '\n' ∉ env.collect.version) {y m d : Nat}
    (hr : o.common.RDATE = [(y : Int), (m : Int), (d : Int)]) :
    ∃ c out o' Y M D, (convertNCToNA (emitFile fmt table) env args).calls = [c] ∧ fileOf fmt table c = .ok out ∧
      readFile (fmt args.opts.floatFormat) 0 out.text = .ok o' ∧
      parseInt Y = some (y : Int) ∧ parseInt M = some (m : Int) ∧ parseInt D = some (d : Int) ∧
      ∃ line ∈ (comHeader o').NCOM,
        strip line = Y ++ "-".toList ++ M ++ "-".toList ++ D ++ " - NASA Ames File created/revised.".toList := by
  obtain ⟨c, out, o', h1, h2, h3, h4, h5, h6, te, user, r, a, dd, k1, k2, k0, k3, k4, k5, k6, k7, k8, k9, k10, k11, k12⟩ :=
    trip_core fmt table hto hmain haux hattrs hread hcount env args hret hfree hopen hback hids hexc hreq hloc huni hcd
      hdel ho hh hsz hnames hfit
  obtain ⟨gn, _⟩ := toXarray_comment k3 k10
  obtain ⟨n1, _⟩ := dictGet?_reopened k11
  have gn' : (nc'.attrs.map Prod.fst).Nodup := by rw [n1]; exact gn
  obtain ⟨Y, M, D, e, e1, e2, e3, _, _, _, hdig⟩ := C62_history k3 k10 hr
  have e := reopened_value k11 e (fixInts_str (by simp)) (by simp)
  obtain ⟨p⟩ := collectDict_parts k6
  obtain ⟨_, q4⟩ := globGo_text _ _ _ p.globs gn'
  rw [e] at q4
  simp only [textOrNumber, if_true] at q4
  obtain ⟨first, more, l1, l2⟩ := history_lines hs hv (env := env.collect) (.str _ : PyVal F)
  rw [l2] at q4
  rw [hshow] at l1
  obtain ⟨hAn, hAd, hAt⟩ := revised_line hdig
  generalize hA : Y ++ "-".toList ++ M ++ "-".toList ++ D ++ " - NASA Ames File created/revised.".toList = A
    at hAn hAd hAt
  have hf : first = A := by
    refine linesOf_first (more := more) (t := '\n' :: (te.stamp ++ " - Converted to Xarray (NetCDF) format using nappy-".toList ++
      te.version ++ ".".toList)) hAn ?_
    have : Y ++ "-".toList ++ M ++ "-".toList ++ D ++ " - NASA Ames File created/revised.\n\n".toList ++
          te.stamp ++ " - Converted to Xarray (NetCDF) format using nappy-".toList ++ te.version ++ ".".toList =
        A ++ '\n' :: '\n' :: (te.stamp ++ " - Converted to Xarray (NetCDF) format using nappy-".toList ++
      te.version ++ ".".toList) := by
      rw [← hA, show " - NASA Ames File created/revised.\n\n".toList =
        " - NASA Ames File created/revised.".toList ++ ['\n', '\n'] by decide]
      simp only [List.append_assoc, List.cons_append, List.nil_append]
    rwa [this] at l1
  subst hf
  have hin : "    ".toList ++ first ∈ p.g.history.getD [] := by
    rw [q4]
    exact List.mem_cons_of_mem _ List.mem_cons_self
  have hmem : "    ".toList ++ first ∈ cleanComments (rawNormal env.collect.hp p.g) := by
    refine shownAs_mem (shownAs_clean _) ?_ ?_ ?_
    · unfold rawNormal
      dsimp only
      rw [if_neg]
      · exact List.mem_append_left _ (List.mem_cons_of_mem _ (List.mem_append_right _ hin))
      · intro e
        rw [(List.append_eq_nil_iff.1 e).2] at hin
        cases hin
    · exact fun hb => absurd (hb '-' (List.mem_append_right _ hAd)) (by decide)
    · intro hm
      rcases List.mem_append.1 hm with hm | hm
      · revert hm; decide
      · exact hAn hm
  obtain ⟨more', t2⟩ := prepareDict_normal k7 p.ncom (fun hm => hover (List.mem_append_left _ hm))
    (fun hm => hover (List.mem_append_right _ hm))
  have t3 := (k8.comments _).2 t2
  have t4 : strip ("    ".toList ++ first) ∈ (comHeader o').NCOM.map strip := by
    rw [t3]
    exact List.mem_map_of_mem (List.mem_append_left _ hmem)
  obtain ⟨line, m1, m2⟩ := List.mem_map.1 t4
  refine ⟨c, out, o', Y, M, D, h2, h3, h5, e1, e2, e3, line, m1, m2.trans ?_⟩
  have := strip_spaces (l := "    ".toList) (s := first) (r := []) (by decide) (by simp)
  rw [List.append_nil] at this
  rw [this]
  exact (strip_eq_self _ hAt).trans hA.symm

/-! ### Concrete case -/

/-- The run of `Ex.tripApi`, with texts shown as they are. -/
def Ex.histApi (o : Obj Int) : ApiEnv Int :=
  { Ex.tripApi o with
    collect := { (Ex.tripApi o).collect with show_ := fun v => match v with | .str s => s | _ => "?".toList } }

/-- What has to be computed for `C111_history_case`. -/
def Ex.histTest (o : Obj Int) (count : Nat) : Bool :=
  match Ex.tripNC o with
  | .ok (_, nc) => decide (nc.vars.length = count) && Ex.namesFreeB nc.vars &&
      decide (((Ex.reopen nc).vars.map XVar.name).Nodup) &&
      (match ncDicts (Ex.histApi o) exArgs with
        | .ok [d] => Ex.fitsB d && (match prepareDict exConfig [] "    ".toList d with
          | .ok d' => Ex.headerB d'
          | _ => false)
        | _ => false)
  | _ => false

/-- The date of revision of the example. -/
def Ex.revisedB : Bool :=
  match readFile intCodec 0 (Ex.tripText (.o2010 Ex.gapGrid)) with
  | .ok o => decide (o.common.RDATE = [2002, 10, 31])
  | .error _ => false

/-- The hypotheses of `C111_history` are met by a file with two axes and an auxiliary variable. -/
theorem C111_history_case : ∃ c out o' Y M D,
    (convertNCToNA (emitFile (fun _ => intCodec) exTable) (Ex.histApi (.o2010 Ex.gapGrid)) exArgs).calls = [c] ∧
    fileOf (fun _ => intCodec) exTable c = .ok out ∧ readFile intCodec 0 out.text = .ok o' ∧
    parseInt Y = some 2002 ∧ parseInt M = some 10 ∧ parseInt D = some 31 ∧
    ∃ line ∈ (comHeader o').NCOM,
      strip line = Y ++ "-".toList ++ M ++ "-".toList ++ D ++ " - NASA Ames File created/revised.".toList := by
  obtain ⟨o1, h1, h2, h3, _, _, _, h6⟩ := Ex.gapGrid_read
  have hB : Ex.revisedB = true := by decide +kernel
  unfold Ex.revisedB at hB
  rw [h1] at hB
  have hB := of_decide_eq_true hB
  obtain ⟨cnt, hcnt, ht⟩ : ∃ count, count = (varHeader o1).NV.toNat + (Spec.auxCount o1).toNat ∧
      Ex.histTest (.o2010 Ex.gapGrid) count = true := ⟨_, h2, by decide +kernel⟩
  unfold Ex.histTest at ht
  split at ht
  · rename_i name nc hnc
    simp only [Bool.and_eq_true, decide_eq_true_eq] at ht
    obtain ⟨⟨⟨t1, t2⟩, t3⟩, t4⟩ := ht
    have hopen : (Ex.histApi (.o2010 Ex.gapGrid)).openNC exArgs.ncFile = .ok (Ex.reopen nc) := by
      simp only [Ex.histApi, Ex.tripApi, hnc]
    exact C111_history (fun _ => intCodec) exTable (nc := nc) hnc rfl rfl
      List.nodup_nil h1 (by omega) (Ex.histApi (.o2010 Ex.gapGrid)) exArgs h6 (Ex.namesFree_of t2) hopen
      (Ex.reopen_file nc t3) rfl rfl
      rfl (by intro k h; cases h) (fun _ _ => ⟨true, rfl⟩) (q := id) Nappy.Ex.intCodec_lawful (by decide) rfl rfl rfl rfl
      (fun d hd => by
        rw [hd] at t4
        simp only [Bool.and_eq_true] at t4
        have hs := Ex.textsFit_of t4.1
        refine ⟨⟨hs.dates, hs.names, hs.comments⟩, ?_, fun e => by omega⟩
        have t5 := t4.2
        split at t5
        · exact ⟨_, by assumption, Ex.header_of t5⟩
        · cases t5)
      (fun hm => absurd (List.mem_singleton.1 (show "NCOM" ∈ ["ORG"] from hm)) (by decide)) (fun _ => rfl)
      (by decide) (by decide) hB
  · cases ht

end Nappy.Props
