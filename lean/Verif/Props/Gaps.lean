import Verif.Spec.Gaps
import Verif.Props.ConvertPrecision
import Verif.SelectLemmas

/-! C94. Gaps in the data are gaps in the file. -/

namespace Nappy.Props

open Nappy Nappy.Spec

variable {F : Type} {x : XEnv F} {q : F → F} {a : Analysis F} {d : Dict (PyVal F)} {o : Obj F}

theorem missingAt_iff (x : XEnv F) (q : F → F) (vars : List (XVar F)) (i j : Nat) :
    MissingAt x (vars.map (fun v => (leaves (written x v)).map q)) (vars.map (fun v => v.miss.getD x.defaultMiss)) i j ↔
      ∃ v y, vars[i]? = some v ∧ (leaves v.data)[j]? = some y ∧
        x.eq (q (if x.isNaN y then missingOf x v else y)) (missingOf x v) = true := by
  unfold MissingAt
  constructor
  · rintro ⟨l, m, z, h1, h2, h3, h4⟩
    rw [List.getElem?_map, Option.map_eq_some_iff] at h1 h2
    obtain ⟨v, hv, rfl⟩ := h1
    obtain ⟨v', hv', rfl⟩ := h2
    have : v = v' := Option.some.inj (hv.symm.trans hv')
    subst this
    unfold written at h3
    rw [leaves_mapTree, List.map_map, List.getElem?_map, Option.map_eq_some_iff] at h3
    obtain ⟨y, hy, rfl⟩ := h3
    exact ⟨v, y, hv, hy, h4⟩
  · rintro ⟨v, y, hv, hy, e⟩
    refine ⟨_, _, _, by rw [List.getElem?_map, hv]; rfl, by rw [List.getElem?_map, hv]; rfl, ?_, e⟩
    show ((leaves (written x v)).map q)[j]? = _
    unfold written
    rw [leaves_mapTree, List.map_map, List.getElem?_map, hy]
    rfl

theorem missing_gap {vars : List (XVar F)} (h : ∀ v ∈ vars, MissingApart x q v) (i j : Nat) :
    (∃ v y, vars[i]? = some v ∧ (leaves v.data)[j]? = some y ∧
      x.eq (q (if x.isNaN y then missingOf x v else y)) (missingOf x v) = true) ↔ GapAt x vars i j := by
  constructor
  · rintro ⟨v, y, hv, hy, e⟩
    refine ⟨v, y, hv, hy, ?_⟩
    cases hn : x.isNaN y with
    | true => rfl
    | false =>
      rw [hn] at e
      exact absurd e (Bool.eq_false_iff.1 ((h v (List.mem_of_getElem? hv)).2 y (List.mem_of_getElem? hy) hn))
  · rintro ⟨v, y, hv, hy, hn⟩
    exact ⟨v, y, hv, hy, by rw [hn]; exact (h v (List.mem_of_getElem? hv)).1⟩

/-- C94, exactly, for the main variables of a file that was read (`Holds` is what C75 proves of each file): which values
are the missing value of the header. -/
theorem C94_exact (hh : Holds x q a d o) (i j : Nat) :
    MissingAt x (mainValues o) (varHeader o).VMISS i j ↔
      ∃ v y, a.main[i]? = some v ∧ (leaves v.data)[j]? = some y ∧
        x.eq (q (if x.isNaN y then missingOf x v else y)) (missingOf x v) = true := by
  rw [hh.values, hh.missing, missingAt_iff]

/-- C94, in part: if the number format keeps the missing values and turns no other value into them, the missing values
of the file are the gaps of the variables, at the same places. What is missing: number formats that round the missing
value or another value, see `C94_lost_fails` and `C94_false_fails`. -/
theorem C94_partial (hh : Holds x q a d o) (hm : ∀ v ∈ a.main ++ a.aux, MissingApart x q v) :
    (∀ i j : Nat, MissingAt x (mainValues o) (varHeader o).VMISS i j ↔ GapAt x a.main i j) ∧
    (a.ffi ≠ 1001 → a.ffi ≠ 1020 → ∃ h, auxSection o = some h ∧ ∀ i j : Nat,
      MissingAt x ((auxValues o).drop (ownAux a.ffi)) (h.AMISS.drop (ownAux a.ffi)) i j ↔ GapAt x a.aux i j) := by
  refine ⟨fun i j => ?_, fun h1 h2 => ?_⟩
  · rw [C94_exact hh, missing_gap (fun v hv => hm v (List.mem_append_left _ hv))]
  · obtain ⟨pre, h, p1, p2, p3, p4, -⟩ := hh.aux h1 h2
    refine ⟨h, p2, fun i j => ?_⟩
    rw [p4, p3, ← p1, List.drop_left, missingAt_iff, missing_gap (fun v hv => hm v (List.mem_append_right _ hv))]

/-- C94 for a whole call of `convertNCToNA`. -/
theorem C94_run_partial (fmt : Str → Codec F) (table : String → Str) (env : ApiEnv F) (args : NCToNAArgs F) {q : F → F}
    (hcd : (fmt args.opts.floatFormat).Lawful q) (hdel : WsDelim args.opts.delimiter)
    (ho : args.opts.annotation = false) (hh : args.opts.noHeader = false) (hsz : args.opts.sizeLimit = none)
    (hnames : args.onlyNames = false)
    {nc : NCFile F} (hnc : env.openNC args.ncFile = .ok nc) {passes : List (Analysis F)} {ds : List (Dict (PyVal F))}
    (hp : convert env.collect.x env.showTree args.requestedFFI
      (readXarrayFile nc.vars args.varIds args.excludeVars).length
      (readXarrayFile nc.vars args.varIds args.excludeVars) = .ok (some passes))
    (hds : mapRes (collectDict env.collect nc.attrs) passes = .ok ds)
    (hcount : ∀ a ∈ passes, MarksRead env.collect.x (fmt args.opts.floatFormat) q a)
    (hfit : ∀ (i : Nat) a d, passes[i]? = some a → ds[i]? = some d →
      PassFits env args.naItems args.opts.delimiter a d)
    (hm : ∀ a ∈ passes, ∀ v ∈ a.main ++ a.aux, MissingApart env.collect.x q v) :
    ∃ names, (convertNCToNA (emitFile fmt table) env args).result = .ok names ∧ names.length = passes.length ∧
      ∀ (k : Nat) a c, passes[k]? = some a → (convertNCToNA (emitFile fmt table) env args).calls[k]? = some c →
        ∃ out o, fileOf fmt table c = .ok out ∧ out.err = none ∧
          readFile (fmt args.opts.floatFormat) 0 out.text = .ok o ∧
          ∀ i j : Nat, MissingAt env.collect.x (mainValues o) (varHeader o).VMISS i j ↔ GapAt env.collect.x a.main i j := by
  obtain ⟨names, e1, e2, -, -, e4⟩ := C75_run fmt table env args hcd hdel ho hh hsz hnames hnc hp hds hcount hfit
  refine ⟨names, e1, e2, fun k a c hk hc => ?_⟩
  obtain ⟨out, o, g1, g2, g3, g4⟩ := e4 k a c hk hc
  exact ⟨out, o, g1, g2, g3, (C94_partial g4 (hm a (List.mem_of_getElem? hk))).1⟩

/-- C94. When a number format meets the condition: the missing value has no more digits (or decimals) than the number
format keeps, and every other value is further away from it than the tolerance for it, and a bit. -/
theorem C94_format {fl : Floats F} (ok : FloatsOk fl) {f : FloatFormat} (hr : Readable fl f) {digits : Nat}
    (hp : Precise fl digits) (hex : ReadsExactly fl) (heq : EqualsValues fl x.eq) {v : XVar F}
    (hm : fl.special (missingOf x v) = none)
    (hd : f.conv = .str ∨
      (f.conv = .fixed ∧ ∃ k : Nat, floatValue fl (missingOf x v) =
        decimalValue (fl.neg (missingOf x v)) k (-(places f : Int))) ∨
      ((f.conv = .exp ∨ f.conv = .general) ∧ ∃ (k : Nat) (c : Int), k < 10 ^ keptDigits f ∧
        floatValue fl (missingOf x v) = decimalValue (fl.neg (missingOf x v)) k c))
    (ha : ∀ y ∈ leaves v.data, x.isNaN y = false → fl.special y = none →
      tolerance fl f y + 1 / 4 * 10 ^ (-(digits : Int)) * (|floatValue fl y| + tolerance fl f y) <
        |floatValue fl (missingOf x v) - floatValue fl y|) :
    MissingApart x (rounded fl f) v := by
  have hsame : ∀ z, fl.special z = none ∧ floatValue fl z = floatValue fl (missingOf x v) →
      x.eq z (missingOf x v) = true := fun z hz => ((heq z _ hm).1 hz.1).2 hz.2
  refine ⟨hsame _ ?_, fun y hy hn => ?_⟩
  · rcases hd with hs | ⟨hc, k, hk⟩ | ⟨hc, k, c, hk, hv⟩
    · rw [C89_special ok hr (.inr hs)]
      exact ⟨hm, rfl⟩
    · obtain ⟨m, e, -, h2, h3⟩ := C89_exact_fixed ok hc hm hk
      rw [h2]
      exact hex _ m e hm h3
    · obtain ⟨m, e, -, h2, h3⟩ := C89_exact_digits ok hc hm hk hv
      rw [h2]
      exact hex _ m e hm h3
  · have hpy := C93_number ok hr y
    cases hsp : fl.special y with
    | none =>
      obtain ⟨g1, g2⟩ := C93_distance hp hpy hsp
      rw [Bool.eq_false_iff]
      intro e
      rw [((heq _ _ hm).1 g1).1 e] at g2
      exact absurd g2 (not_le.2 (ha y hy hn hsp))
    | some s =>
      rw [hpy.1 (.inl (by rw [hsp]; simp))]
      exact (heq _ _ hm).2 (by rw [hsp]; simp)

/-! ### Concrete cases -/

/-- Whole numbers; 77 stands for NaN. -/
def Ex.gapX : XEnv Int := { exXEnv with isNaN := fun y => decide (y = 77) }

/-- Two variables with a gap each. -/
def Ex.gapVars : List (XVar Int) :=
  [{ Ex.dataVar "temp" [exTime] none none with data := .lst [.val 31, .val 77, .val 12345, .val (-3)] },
   { Ex.dataVar "wind" [exTime] none none with data := .lst [.val 77, .val 121, .val 7, .val 9] }]

/-- The run on `Ex.gapVars`, with the given missing values. -/
def Ex.gapApi (m1 m2 : Int) : ApiEnv Int :=
  { Ex.sourceApi with
    openNC := fun _ => .ok { Ex.source with
      vars := List.zipWith (fun v m => { v with miss := some m }) Ex.gapVars [m1, m2] },
    collect := { Ex.sourceApi.collect with x := Ex.gapX } }

/-- The values that are read from the only file, and the missing values of its header. -/
def Ex.gapRun (f : FloatFormat) (m1 m2 : Int) : Option (List (List Int) × List Int) :=
  match (convertNCToNA (emitFile (fun _ => Ex.wholeFloats.codec f) exTable) (Ex.gapApi m1 m2) Ex.sourceArgs).calls with
  | [c] => (match fileOf (fun _ => Ex.wholeFloats.codec f) exTable c with
    | .ok out => (match readFile (Ex.wholeFloats.codec f) 0 out.text with
      | .ok o => some (mainValues o, (varHeader o).VMISS)
      | _ => none)
    | _ => none)
  | _ => none

/-- The hypotheses of `C94_run_partial` are met with missing values of two digits. -/
example : ∃ names, (convertNCToNA (emitFile (fun _ => Ex.wholeFloats.codec (plainFormat 0 2 .general false)) exTable)
      (Ex.gapApi (-99) (-9900)) Ex.sourceArgs).result = .ok names ∧ names.length = 1 := by
  have hlaw : (Ex.wholeFloats.codec (plainFormat 0 2 .general false)).Lawful
      (rounded Ex.wholeFloats (plainFormat 0 2 .general false)) := C89_lawful Ex.whole_ok ⟨by decide, .inr (.inl rfl)⟩
  obtain ⟨passes, ds, h1, h2, h3, h4, h5⟩ := Ex.run_of (env := Ex.gapApi (-99) (-9900)) (args := Ex.sourceArgs)
    (nc := { Ex.source with
      vars := List.zipWith (fun v m => { v with miss := some m }) Ex.gapVars [-99, -9900] }) (n := 1) (by decide +kernel)
  obtain ⟨names, e1, e2, _⟩ := C94_run_partial (fun _ => Ex.wholeFloats.codec (plainFormat 0 2 .general false)) exTable
    (Ex.gapApi (-99) (-9900)) Ex.sourceArgs hlaw (by decide) rfl rfl rfl rfl rfl h1 h2
    (fun a ha hf => absurd hf (not_or.2 (h4 a ha))) h5 (by
      intro a ha v hv
      have key : ∀ w ∈ readXarrayFile (List.zipWith (fun v m => { v with miss := some m }) Ex.gapVars [-99, -9900]) none [],
          w.axes.isEmpty = false ∧
          Ex.gapX.eq (rounded Ex.wholeFloats (plainFormat 0 2 .general false) (missingOf Ex.gapX w)) (missingOf Ex.gapX w)
            = true ∧
          ∀ y ∈ leaves w.data, Ex.gapX.isNaN y = false →
            Ex.gapX.eq (rounded Ex.wholeFloats (plainFormat 0 2 .general false) y) (missingOf Ex.gapX w) = false := by decide +kernel
      obtain ⟨w, hw, hu⟩ := convert_from h1 a ha v (List.mem_append_left _ hv)
      obtain ⟨k1, k2⟩ := key w hw
      rw [hu.1 (by simpa using k1)]
      exact k2)
  exact ⟨names, e1, by omega⟩

/-- The places of the gaps are those of the missing values. -/
example : Ex.gapRun (plainFormat 0 2 .general false) (-99) (-9900) =
    some ([[31, -99, 12000, -3], [-9900, 120, 7, 9]], [-99, -9900]) := by decide +kernel

/-- C94, negation: a missing value of more digits than the number format keeps. The gap of the first variable is
written as -10000, but the header gives -9999. -/
theorem C94_lost_fails : ∃ values missing, Ex.gapRun (plainFormat 0 2 .general false) (-9999) (-99) = some (values, missing) ∧
    GapAt Ex.gapX Ex.gapVars 0 1 ∧ ¬ MissingAt Ex.gapX values missing 0 1 := by
  refine ⟨[[31, -10000, 12000, -3], [-99, 120, 7, 9]], [-9999, -99], by decide +kernel,
    ⟨_, 77, rfl, by decide, by decide⟩, ?_⟩
  rintro ⟨l, m, z, h1, h2, h3, h4⟩
  simp at h1 h2
  subst h1 h2
  simp at h3
  subst h3
  revert h4
  decide

/-- C94, negation: a value that is rounded to the missing value. 121 is written as 120. -/
theorem C94_false_fails : ∃ values missing, Ex.gapRun (plainFormat 0 2 .general false) (-99) 120 = some (values, missing) ∧
    ¬ GapAt Ex.gapX Ex.gapVars 1 1 ∧ MissingAt Ex.gapX values missing 1 1 := by
  refine ⟨[[31, -99, 12000, -3], [120, 120, 7, 9]], [-99, 120], by decide +kernel, ?_, ⟨_, 120, 120, rfl, rfl, rfl, rfl⟩⟩
  rintro ⟨v, y, h1, h2, h3⟩
  simp [Ex.gapVars] at h1
  subst h1
  have : y = 121 := Option.some.inj (h2.symm.trans (by decide))
  subst this
  revert h3
  decide

/-- Decimal numbers, with `==`. -/
def Ex.decX : XEnv Ex.Dec :=
  { eq := fun y z => match y, z with
      | .fin n m e, .fin n' m' e' => decide (decimalValue n m e = decimalValue n' m' e')
      | _, _ => false,
    sub := fun y _ => y, zero := .fin false 0 0, one := .fin false 1 0,
    isNaN := fun y => match y with | .special .nan => true | _ => false,
    defaultMiss := .fin true 1 20, uniform := fun _ => .ok true, ofNat := fun n => .fin false n 0 }

theorem Ex.dec_equals : EqualsValues Ex.decFloats Ex.decX.eq := by
  rintro (⟨n, m, e⟩ | s) (⟨n', m', e'⟩ | s') hz
  · refine ⟨fun _ => ?_, fun h => absurd rfl h⟩
    rw [Ex.dec_value, Ex.dec_value]
    exact decide_eq_true_iff
  · cases hz
  · exact ⟨fun h => (by cases h), fun _ => rfl⟩
  · cases hz

theorem Ex.dec_exactly : ReadsExactly Ex.decFloats := by
  intro y m e _ h
  exact ⟨rfl, (Ex.dec_value _ m e).trans h⟩

/-- The hypotheses of `C94_format` are met: the missing value -9999.999 has seven digits, `%.7g` keeps them, and -1.5 and
NaN are no nearer. -/
example : MissingApart Ex.decX (rounded Ex.decFloats (plainFormat 0 7 .general false))
    { name := "t".toList, axes := [], data := .lst [.val (.fin true 15 (-1)), .val (.special .nan)], naNumber := none,
      naAuxNumber := none, miss := some (.fin true 9999999 (-3)), attrs := [], encUnits := none } := by
  refine C94_format Ex.dec_ok ⟨by decide, .inr (.inl rfl)⟩ (Ex.dec_precise 15) Ex.dec_exactly Ex.dec_equals rfl
    (.inr (.inr ⟨.inr rfl, 9999999, -3, by decide, Ex.dec_value _ _ _⟩)) ?_
  intro y hy hn hs
  simp only [leaves, leavesList, List.append_nil, List.cons_append, List.nil_append, List.mem_cons, List.not_mem_nil,
    or_false] at hy
  rcases hy with rfl | rfl
  · show tolerance _ _ _ + 1 / 4 * 10 ^ (-((15 : Nat) : Int)) * (|floatValue Ex.decFloats (.fin true 15 (-1))| + _) <
      |floatValue Ex.decFloats (.fin true 9999999 (-3)) - floatValue Ex.decFloats (.fin true 15 (-1))|
    simp only [tolerance, plainFormat, Ex.dec_value, decimalValue, keptDigits, places]
    norm_num [abs_of_neg, abs_of_pos]
  · cases hn

end Nappy.Props
