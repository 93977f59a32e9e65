import Verif.ScriptLemmas
import Verif.Props.Api

/-! Properties C55 and C71: the command line tools. -/

namespace Nappy.Props

open Nappy.Spec

variable {F : Type}

/-! ### C55 -/

/-- C55. Options are recognised however they are spelt (letters together or apart, with the value in the same or in the
next argument, long names in full or shortened, with `=` or not). What follows them is left, without the mark `--` if
that is what ends them. -/
theorem C55_getopt {S : List (Char × Bool)} {L : List (Str × Bool)} (ht : Table S L) {os : List (Str × Str)}
    {args rest : List Str} (h : ArgsSpell S L os args) (hp : Positional rest) :
    getopt (shortText S) (longText L) (args ++ rest) = .ok (os, withoutMark rest) := by
  have := getopt_spells ht h (getopt_stop (shorts := shortText S) (longs := longText L) hp)
  rwa [List.append_nil] at this

/-- A file whose name begins with a dash can be given behind `--`. -/
example : Positional ["--".toList, "-x.na".toList] ∧ withoutMark ["--".toList, "-x.na".toList] = ["-x.na".toList] :=
  ⟨.inr (.inr rfl), rfl⟩

/-- C55 for `nc2na`, without `-l`. However the options are spelt (letters with the value in the same or in the next
argument, long names in full or shortened, with `=` or not), and whatever follows them, the conversion gets exactly
what was asked for: of options given several times the last one, and the defaults for the others. -/
theorem C55_nc2na_partial (emit : WriteCall F → Res Unit) (env : ApiEnv F) (given : List NcOpt)
    (args rest : List Str) (hs : NcSpells given args) (hp : Positional rest) (hl : ∀ n, NcOpt.rows n ∉ given)
    (f : Str) (hf : lastOf NcOpt.input? given = some f) (hne : f ≠ []) :
    ∃ items : Dict (PyVal F),
      (∀ k : Str, dictGet? items (String.ofList k) =
        ((lastOf NcOpt.overwrite? given).bind (fun l => lastValue l k)).map .str) ∧
      nc2na emit env (args ++ rest) = convertNCToNA emit env
        { ncFile := f
          naFile := lastOf NcOpt.output? given
          varIds := lastOf NcOpt.vars? given
          naItems := items
          onlyNames := decide (NcOpt.namesOnly ∈ given)
          excludeVars := (lastOf NcOpt.exclude? given).getD []
          requestedFFI := lastOf NcOpt.ffi? given
          opts :=
            { delimiter := (lastOf NcOpt.delimiter? given).getD "    ".toList
              floatFormat := (lastOf NcOpt.floatFormat? given).getD "%.10g".toList
              annotation := decide (NcOpt.annotated ∈ given)
              sizeLimit := none
              noHeader := decide (NcOpt.noHeader ∈ given) } } := by
  obtain ⟨os, h1, h2⟩ := ncParse_opts hs hp
  have hr : ∀ g ∈ given, g.rows? = none := by
    intro g hg
    cases g with
    | rows n => exact absurd hg (hl n)
    | _ => rfl
  have h3 := ncLoop_spells h1 hr ncDefaults
  have opt : ∀ {γ : Type} (proj : NcArgs → Option γ) (q : NcOpt → Option γ),
      (∀ a g, proj (ncUpd a g) = (q g).or (proj a)) → proj ncDefaults = none →
      proj (given.foldl ncUpd ncDefaults) = lastOf q given := by
    intro γ proj q hu h0
    have := lastOf_fold ncUpd proj (fun g => (q g).map some) (by
      intro a g; rw [hu]; cases q g <;> rfl) given ncDefaults
    rw [this, h0]
    unfold lastOf
    have hmap : given.filterMap (fun g => (q g).map some) = (given.filterMap q).map some := by
      rw [List.map_filterMap]
    rw [hmap, List.getLast?_map]
    cases (given.filterMap q).getLast? <;> rfl
  have e1 := opt NcArgs.ncFile NcOpt.input? (by intro a g; cases g <;> rfl) rfl
  have e2 := opt NcArgs.naFile NcOpt.output? (by intro a g; cases g <;> rfl) rfl
  have e3 := opt NcArgs.varIds NcOpt.vars? (by intro a g; cases g <;> rfl) rfl
  have e4 := opt NcArgs.requestedFFI NcOpt.ffi? (by intro a g; cases g <;> rfl) rfl
  have e5 := lastOf_fold ncUpd NcArgs.floatFormat NcOpt.floatFormat? (by intro a g; cases g <;> rfl) given ncDefaults
  have e6 := lastOf_fold ncUpd NcArgs.delimiter NcOpt.delimiter? (by intro a g; cases g <;> rfl) given ncDefaults
  have e7 := lastOf_fold ncUpd NcArgs.sizeLimit (fun _ => none) (by intro a g; cases g <;> rfl) given ncDefaults
  have e8 := lastOf_fold ncUpd NcArgs.excludeVars NcOpt.exclude? (by intro a g; cases g <;> rfl) given ncDefaults
  have e9 := lastOf_fold ncUpd NcArgs.naItems (fun g => g.overwrite?.map pairsDict) (by intro a g; cases g <;> rfl)
    given ncDefaults
  have e10 := switch_fold ncUpd NcArgs.onlyNames .namesOnly (fun _ => rfl)
    (by intro a g hg; cases g <;> first | rfl | exact absurd rfl hg) given ncDefaults rfl
  have e11 := switch_fold ncUpd NcArgs.noHeader .noHeader (fun _ => rfl)
    (by intro a g hg; cases g <;> first | rfl | exact absurd rfl hg) given ncDefaults rfl
  have e12 := switch_fold ncUpd NcArgs.annotation .annotated (fun _ => rfl)
    (by intro a g hg; cases g <;> first | rfl | exact absurd rfl hg) given ncDefaults rfl
  refine ⟨(given.foldl ncUpd ncDefaults).naItems.map (fun kv => (String.ofList kv.1, .str kv.2)), ?_, ?_⟩
  · intro k
    have hget : ∀ (l : List (Str × Str)), dictGet? (l.map (fun kv => (String.ofList kv.1, (PyVal.str kv.2 : PyVal F))))
        (String.ofList k) = (sdictGet? l k).map .str := by
      intro l
      induction l with
      | nil => rfl
      | cons p l ih =>
        rw [List.map_cons]
        unfold sdictGet?
        by_cases hp : p.1 = k
        · simp [dictGet?, hp]
        · have : String.ofList p.1 ≠ String.ofList k := fun h => hp (String.ofList_injective h)
          rw [if_neg hp, ← ih]
          simp [dictGet?, this]
    rw [hget, e9]
    have : lastOf (fun g => NcOpt.overwrite? g |>.map pairsDict) given = (lastOf NcOpt.overwrite? given).map pairsDict := by
      unfold lastOf
      rw [← List.getLast?_map, List.map_filterMap]
    rw [this]
    cases lastOf NcOpt.overwrite? given with
    | none => rfl
    | some l => simp [pairsDict_get]
  · have hparse : ncParseArgs (args ++ rest) = .ok (given.foldl ncUpd ncDefaults) := by
      unfold ncParseArgs
      rw [h2]
      simp only [h3, ok_bind, e1, hf]
      rw [if_neg (by simp [hne])]
    unfold nc2na
    rw [hparse]
    simp only [NcArgs.toApi, e1, hf, e2, e3, e4, e5, e6, e7, e8, e10, e11, e12, Option.getD_some]
    have h7 : lastOf (fun _ : NcOpt => (none : Option (Option Int))) given = none := by
      unfold lastOf
      rw [show given.filterMap (fun _ : NcOpt => (none : Option (Option Int))) = [] by simp]
      rfl
    rw [h7]
    rfl

/-- C55 does not hold for the option `-l` of `nc2na`: the tool stops without converting anything, for every
spelling. -/
theorem C55_nc2na_fails (emit : WriteCall F → Res Unit) (env : ApiEnv F) (given : List NcOpt) (args rest : List Str)
    (hs : NcSpells given args) (hp : Positional rest) (n : Int) (hl : NcOpt.rows n ∈ given) :
    nc2na emit env (args ++ rest) = { calls := [], result := .error .exit } := by
  obtain ⟨os, h1, h2⟩ := ncParse_opts hs hp
  have h3 := ncLoop_rows h1 ⟨_, hl, by simp [NcOpt.rows?]⟩ ncDefaults
  unfold nc2na ncParseArgs
  rw [h2]
  simp only [h3, error_bind]

/-- C55. Without a file to read, `nc2na` stops and writes nothing. -/
theorem C55_nc2na_no_input (emit : WriteCall F → Res Unit) (env : ApiEnv F) (given : List NcOpt) (args rest : List Str)
    (hs : NcSpells given args) (hp : Positional rest)
    (hf : lastOf NcOpt.input? given = none ∨ lastOf NcOpt.input? given = some []) :
    nc2na emit env (args ++ rest) = { calls := [], result := .error .exit } := by
  by_cases hl : ∃ n, NcOpt.rows n ∈ given
  · obtain ⟨n, hl⟩ := hl
    exact C55_nc2na_fails emit env given args rest hs hp n hl
  · obtain ⟨os, h1, h2⟩ := ncParse_opts hs hp
    have hr : ∀ g ∈ given, g.rows? = none := by
      intro g hg
      cases g with
      | rows n => exact absurd ⟨n, hg⟩ hl
      | _ => rfl
    have h3 := ncLoop_spells h1 hr ncDefaults
    have e1 : (given.foldl ncUpd ncDefaults).ncFile = lastOf NcOpt.input? given := by
      have := lastOf_fold ncUpd NcArgs.ncFile (fun g => (NcOpt.input? g).map some) (by
        intro a g; cases g <;> rfl) given ncDefaults
      rw [this]
      unfold lastOf
      have hmap : given.filterMap (fun g => (NcOpt.input? g).map some) = (given.filterMap NcOpt.input?).map some := by
        rw [List.map_filterMap]
      rw [hmap, List.getLast?_map]
      cases (given.filterMap NcOpt.input?).getLast? <;> rfl
    unfold nc2na ncParseArgs
    rw [h2]
    simp only [h3, ok_bind, e1]
    rw [if_pos hf]

/-- Options spelt in several ways: `-i a.nc -v x,y --ffi 1001 --no-h -d;` -/
theorem Ex.ncSpells : NcSpells [.input "a.nc".toList, .vars ["x".toList, "y".toList], .ffi 1001, .noHeader,
      .delimiter ";".toList]
    ["-i".toList, "a.nc".toList, "-vx,y".toList, "--ffi".toList, "1001".toList, "--no-h".toList, "-d;".toList] :=
  ⟨[("-i".toList, "a.nc".toList), ("-v".toList, "x,y".toList), ("--ffi".toList, "1001".toList),
      ("--no-header".toList, []), ("-d".toList, ";".toList)],
    .cons ⟨rfl, rfl⟩ (.cons ⟨rfl, by decide, by decide, by decide⟩ (.cons ⟨rfl, by show pyInt _ = _; decide +kernel⟩
      (.cons ⟨rfl, rfl⟩ (.cons ⟨rfl, rfl⟩ .nil)))),
    .shortApart [] 'i' _ _ _ (by simp) (by decide) (.short [(['-', 'v'], "x,y".toList)] _ _ _ (.value 'v' _ (by decide) (by decide))
      (.longApart "ffi".toList "ffi".toList _ _ _ (by decide) (.inl rfl)
        (.flag "no-header".toList "no-h".toList _ _ (by decide) (.inr ⟨by decide, by decide, by decide⟩)
          (.short [(['-', 'd'], ";".toList)] _ _ _ (.value 'd' _ (by decide) (by decide)) .nil))))⟩

example : Positional ["b.nc".toList] ∧ lastOf NcOpt.input? [.input "a.nc".toList, .ffi 1001] = some "a.nc".toList :=
  ⟨.inl (by decide), rfl⟩

/-- `-l` is declared in the usage text and can be spelt. -/
theorem Ex.ncRows : NcSpells [.input "a.nc".toList, .rows 10]
    ["-i".toList, "a.nc".toList, "-l".toList, "10".toList] :=
  ⟨[("-i".toList, "a.nc".toList), ("-l".toList, "10".toList)],
    .cons ⟨rfl, rfl⟩ (.cons ⟨rfl, by show pyInt _ = _; decide +kernel⟩ .nil),
    .shortApart [] 'i' _ _ _ (by simp) (by decide) (.shortApart [] 'l' _ _ _ (by simp) (by decide) .nil)⟩

/-- The name that `na2nc` chooses. -/
def NCNameFor (f n : Str) : Prop :=
  (∃ b, f = b ++ ".na".toList ∧ n = b ++ ".nc".toList) ∨ ((¬ ∃ b, f = b ++ ".na".toList) ∧ n = f ++ ".nc".toList)

theorem autoNCName_spec (f : Str) : NCNameFor f (autoNCName f) := by
  unfold autoNCName
  by_cases h : ∃ b, f = b ++ ".na".toList
  · obtain ⟨b, rfl⟩ := h
    refine .inl ⟨b, rfl, ?_⟩
    have h1 : lastThree (b ++ ".na".toList) = ".na".toList := by simp [lastThree]
    have h2 : dropThree (b ++ ".na".toList) = b := by simp [dropThree]
    rw [if_pos h1, h2]
  · refine .inr ⟨h, ?_⟩
    rw [if_neg]
    intro h1
    apply h
    refine ⟨f.take (f.length - 3), ?_⟩
    rw [← h1]
    exact (List.take_append_drop _ _).symm

/-- C55 for `na2nc`, without `-v` and `-a`. The conversion gets what was asked for. -/
theorem C55_na2nc_partial (cd : Codec F) (env : ToXEnv F) (typed : List Str) (file : Str → Res Str)
    (given : List NaOpt) (args rest : List Str) (hs : NaSpells given args) (hp : Positional rest)
    (hi : ∀ g ∈ given, g.Implemented) (f : Str) (hf : lastOf NaOpt.input? given = some f) (hne : f ≠ []) :
    ∃ (renames : Renames) (nc : Str),
      (∀ k, lookupLast renames k = (lastOf NaOpt.rename? given).bind (fun l => lastValue l k)) ∧
      (match lastOf NaOpt.output? given with
        | none | some [] => NCNameFor f nc
        | some o => nc = o) ∧
      na2nc cd env typed file (args ++ rest) = (do
        let text ← file f
        convertNAToNC cd env typed f text
          { ncFile := some nc
            mode := (lastOf NaOpt.mode? given).getD "w".toList
            mainVars := .all
            auxVars := .all
            globalAttributes := ((lastOf NaOpt.atts? given).getD []).map (fun kv => (String.ofList kv.1, .str kv.2))
            timeUnits := lastOf NaOpt.timeUnits? given
            timeWarning := !decide (NaOpt.quiet ∈ given)
            renameVariables := renames }) := by
  obtain ⟨os, h1, h2⟩ := naParse_opts hs hp
  have h3 := naLoop_spells h1 hi na2ncDefaults
  have opt : ∀ {γ : Type} (proj : Na2ncArgs → Option γ) (q : NaOpt → Option γ),
      (∀ a g, proj (naUpd a g) = (q g).or (proj a)) → proj na2ncDefaults = none →
      proj (given.foldl naUpd na2ncDefaults) = lastOf q given := by
    intro γ proj q hu h0
    have := lastOf_fold naUpd proj (fun g => (q g).map some) (by
      intro a g; rw [hu]; cases q g <;> rfl) given na2ncDefaults
    rw [this, h0]
    unfold lastOf
    have hmap : given.filterMap (fun g => (q g).map some) = (given.filterMap q).map some := by
      rw [List.map_filterMap]
    rw [hmap, List.getLast?_map]
    cases (given.filterMap q).getLast? <;> rfl
  have e1 := opt Na2ncArgs.naFile NaOpt.input? (by intro a g; cases g <;> rfl) rfl
  have e2 := opt Na2ncArgs.ncFile NaOpt.output? (by intro a g; cases g <;> rfl) rfl
  have e3 := opt Na2ncArgs.timeUnits NaOpt.timeUnits? (by intro a g; cases g <;> rfl) rfl
  have e4 := lastOf_fold naUpd Na2ncArgs.mode NaOpt.mode? (by intro a g; cases g <;> rfl) given na2ncDefaults
  have e5 := lastOf_fold naUpd Na2ncArgs.globalAttributes NaOpt.atts? (by intro a g; cases g <;> rfl) given
    na2ncDefaults
  have e6 := lastOf_fold naUpd Na2ncArgs.renameVariables (fun g => g.rename?.map pairsDict)
    (by intro a g; cases g <;> rfl) given na2ncDefaults
  have e7 := switch_fold naUpd (fun a => !a.timeWarning) .quiet (fun _ => rfl)
    (by intro a g hg; cases g <;> first | rfl | exact absurd rfl hg) given na2ncDefaults rfl
  have e7' : (given.foldl naUpd na2ncDefaults).timeWarning = !decide (NaOpt.quiet ∈ given) := by
    rw [← e7, Bool.not_not]
  refine ⟨(given.foldl naUpd na2ncDefaults).renameVariables,
    (match lastOf NaOpt.output? given with
      | none | some [] => autoNCName f
      | some o => o), ?_, ?_, ?_⟩
  · intro k
    rw [e6]
    have : lastOf (fun g => NaOpt.rename? g |>.map pairsDict) given = (lastOf NaOpt.rename? given).map pairsDict := by
      unfold lastOf
      rw [← List.getLast?_map, List.map_filterMap]
    rw [this]
    cases lastOf NaOpt.rename? given with
    | none => rfl
    | some l =>
      simp only [Option.map_some, Option.getD_some, Option.bind_some]
      rw [lookupLast_dict (pairsDict_keys l), pairsDict_get]
  · cases lastOf NaOpt.output? given with
    | none => exact autoNCName_spec f
    | some o => cases o with
      | nil => exact autoNCName_spec f
      | cons c t => rfl
  · have hparse : na2ncParseArgs (args ++ rest) = .ok (f, { given.foldl naUpd na2ncDefaults with
        ncFile := some (match lastOf NaOpt.output? given with
          | none | some [] => autoNCName f
          | some o => o) }) := by
      unfold na2ncParseArgs
      rw [h2]
      simp only [h3, ok_bind, e1, hf]
      cases f with
      | nil => exact absurd rfl hne
      | cons c t =>
        simp only [e2]
        cases ho : lastOf NaOpt.output? given with
        | none => simp
        | some o =>
          cases o with
          | nil => simp
          | cons c t =>
            rw [ho] at e2
            have eta : ∀ x : Na2ncArgs, x.ncFile = some (c :: t) → x = { x with ncFile := some (c :: t) } := by
              rintro ⟨⟩ h; cases h; rfl
            simp only [reduceCtorEq, Option.some.injEq, or_self, if_false]
            conv_lhs => rw [eta _ e2, e1, hf]
    unfold na2nc
    rw [hparse]
    simp only [ok_bind, Na2ncArgs.toApi, e3, e4, e5, e7']
    rfl

/-- C55 does not hold for `-v` and `-a` of `na2nc`: the tool stops. -/
theorem C55_na2nc_fails (cd : Codec F) (env : ToXEnv F) (typed : List Str) (file : Str → Res Str)
    (given : List NaOpt) (args rest : List Str) (hs : NaSpells given args) (hp : Positional rest)
    (hi : ∃ g ∈ given, ¬ g.Implemented) : na2nc cd env typed file (args ++ rest) = .error .exit := by
  obtain ⟨os, h1, h2⟩ := naParse_opts hs hp
  have h3 := naLoop_stops h1 hi na2ncDefaults
  unfold na2nc na2ncParseArgs
  rw [h2]
  simp only [h3, error_bind]

/-- `-nr a,b -i x.na` -/
example : NaSpells [.quiet, .rename [("a".toList, "b".toList)], .input "x.na".toList]
    ["-nr".toList, "a,b".toList, "-ix.na".toList] :=
  ⟨[("-n".toList, []), ("-r".toList, "a,b".toList), ("-i".toList, "x.na".toList)],
    .cons ⟨rfl, rfl⟩ (.cons ⟨rfl, by decide, by decide, by decide⟩ (.cons ⟨rfl, rfl⟩ .nil)),
    .shortApart ['n'] 'r' _ _ _ (by decide) (by decide)
      (.short [(['-', 'i'], "x.na".toList)] _ _ _ (.value 'i' _ (by decide) (by decide)) .nil)⟩

/-- C55 does not hold for the comparison tool: whatever the arguments, it raises. -/
theorem C55_compare_fails (args : List Str) : ∃ x, cmpMain args = .error x := by
  unfold cmpMain
  cases cmpParseArgs args with
  | error x => exact ⟨x, rfl⟩
  | ok r => exact ⟨_, rfl⟩

/-- `NameError`, if the arguments are right. -/
example : cmpMain ["-n".toList, "a.na".toList, "b.na".toList] = .error .name := by decide +kernel

/-! ### C71 -/

/-- C71, as far as it holds. `nc2csv.py` started as a program, with options only and no argument `-d`, writes all files
with commas; it gets the other options as `nc2na` does. -/
theorem C71_partial (emit : WriteCall F → Res Unit) (env : ApiEnv F) (given : List NcOpt)
    (args : List Str) (hs : NcSpells given args) (hd : "-d".toList ∉ args) :
    (∀ c ∈ (nc2csvProgram emit env args).calls, c.delimiter = ",".toList) ∧
    ∃ args', NcSpells (given ++ [.delimiter ",".toList]) args' ∧
      nc2csvProgram emit env args = nc2na emit env args' := by
  obtain ⟨os, h1, h2⟩ := hs
  have hs' : NcSpells (given ++ [.delimiter ",".toList]) (args ++ ["-d".toList, ",".toList]) := by
    refine ⟨os ++ [("-d".toList, ",".toList)], ?_, ?_⟩
    · exact List.rel_append h1 (.cons ⟨rfl, rfl⟩ .nil)
    · exact argsSpell_append h2 (.shortApart [] 'd' _ _ _ (by simp) (by decide) .nil)
  have hp : nc2csvProgram emit env args = nc2na emit env (args ++ ["-d".toList, ",".toList]) := by
    unfold nc2csvProgram
    rw [if_neg (by rwa [List.contains_iff_mem])]
  refine ⟨?_, _, hs', hp⟩
  intro c hc
  rw [hp] at hc
  by_cases hl : ∃ n, NcOpt.rows n ∈ given
  · obtain ⟨n, hl⟩ := hl
    have := C55_nc2na_fails emit env _ _ [] hs' trivial n (List.mem_append_left _ hl)
    rw [List.append_nil] at this
    rw [this] at hc
    cases hc
  · cases hf : lastOf NcOpt.input? (given ++ [.delimiter ",".toList]) with
    | none =>
      have := C55_nc2na_no_input emit env _ _ [] hs' trivial (.inl hf)
      rw [List.append_nil] at this
      rw [this] at hc
      cases hc
    | some f =>
      by_cases hne : f = []
      · have := C55_nc2na_no_input emit env _ _ [] hs' trivial (.inr (hf.trans (by rw [hne])))
        rw [List.append_nil] at this
        rw [this] at hc
        cases hc
      · obtain ⟨items, -, h⟩ := C55_nc2na_partial emit env _ _ [] hs' trivial (by
            intro n hm
            rcases List.mem_append.1 hm with hm | hm
            · exact hl ⟨n, hm⟩
            · simp at hm) f hf hne
        rw [List.append_nil] at h
        rw [h] at hc
        have := (convertNCToNA_uses emit env _ c hc).1.1
        rw [this]
        simp [lastOf, NcOpt.delimiter?]

/-- C71 does not hold for the installed command: it writes with blanks. -/
theorem C71_command_fails :
    (∀ (emit : WriteCall F → Res Unit) (env : ApiEnv F) (args : List Str),
      nc2csvCommand emit env args = nc2na emit env args) ∧
    (nc2csvCommand (fun _ => .ok ()) exApi ["-i".toList, "a.nc".toList, "-v".toList, "temp".toList]).calls.map
      (fun c => (c.name, c.delimiter)) = [("a.nc.na".toList, "    ".toList)] :=
  ⟨fun _ _ _ => rfl, by decide +kernel⟩

/-- C71 does not hold for the program if anything follows the options: the commas are lost. -/
theorem C71_program_fails :
    (nc2csvProgram (fun _ => .ok ()) exApi
      ["-i".toList, "a.nc".toList, "-v".toList, "temp".toList, "more".toList]).calls.map
      (fun c => (c.name, c.delimiter)) = [("a.nc.na".toList, "    ".toList)] := by
  decide +kernel

/-- The example above without the last argument meets the hypotheses of `C71_partial`, and a file is written. -/
example : NcSpells [.input "a.nc".toList, .vars ["temp".toList]]
      ["-i".toList, "a.nc".toList, "-v".toList, "temp".toList] ∧
    (nc2csvProgram (fun _ => .ok ()) exApi ["-i".toList, "a.nc".toList, "-v".toList, "temp".toList]).calls.map
      (fun c => (c.name, c.delimiter)) = [("a.nc.na".toList, ",".toList)] :=
  ⟨⟨[("-i".toList, "a.nc".toList), ("-v".toList, "temp".toList)],
    .cons ⟨rfl, rfl⟩ (.cons ⟨rfl, by decide, by decide, by decide⟩ .nil),
    .shortApart [] 'i' _ _ _ (by simp) (by decide) (.shortApart [] 'v' _ _ _ (by simp) (by decide) .nil)⟩,
   by decide +kernel⟩

end Nappy.Props
