import Verif.Spec.ConvertPrecision
import Verif.Props.Precision
import Verif.Props.ConvertFile

/-! C93. Converted numbers are as precise as `float_format` promises. -/

namespace Nappy.Props

open Nappy Nappy.Spec

variable {F : Type}

/-- C93. One number, written and read. -/
theorem C93_number {fl : Floats F} (ok : FloatsOk fl) {f : FloatFormat} (hr : Readable fl f) (y : F) :
    Preserves fl f y (rounded fl f y) := by
  refine ⟨C89_special ok hr, fun hy hs => ?_⟩
  cases hc : f.conv with
  | str => exact absurd hc hs
  | fixed =>
    obtain ⟨m, e, -, h2, h3⟩ := C89_fixed ok hc hy
    exact ⟨m, e, h2, by unfold tolerance; rw [hc]; exact h3⟩
  | exp =>
    obtain ⟨m, e, -, h2, h3⟩ := C89_relative ok (.inl hc) hy
    exact ⟨m, e, h2, by unfold tolerance; rw [hc]; exact h3⟩
  | general =>
    obtain ⟨m, e, -, h2, h3⟩ := C89_relative ok (.inr hc) hy
    exact ⟨m, e, h2, by unfold tolerance; rw [hc]; exact h3⟩

/-- C93. With floats that are precise enough, the number that is read is about as near: the float next to a decimal
number adds at most a quarter of a unit of its own last digit. -/
theorem C93_distance {fl : Floats F} {f : FloatFormat} {digits : Nat} (hp : Precise fl digits) {y z : F}
    (h : Preserves fl f y z) (hy : fl.special y = none) :
    fl.special z = none ∧
      |floatValue fl z - floatValue fl y| ≤
        tolerance fl f y + 1 / 4 * 10 ^ (-(digits : Int)) * (|floatValue fl y| + tolerance fl f y) := by
  by_cases hs : f.conv = .str
  · have e := h.1 (.inr hs)
    subst e
    refine ⟨hy, ?_⟩
    have ht : 0 ≤ tolerance fl f z := by
      unfold tolerance
      split <;> positivity
    have hd : (0 : ℚ) ≤ 10 ^ (-(digits : Int)) := by positivity
    rw [sub_self, abs_zero]
    positivity
  · obtain ⟨m, e, rfl, h2⟩ := h.2 hy hs
    obtain ⟨p1, -, p3⟩ := hp (fl.neg y) m e
    refine ⟨p1, ?_⟩
    generalize decimalValue (fl.neg y) m e = d at *
    generalize floatValue fl (fl.near (fl.neg y) m e) = w at *
    have hd : (0 : ℚ) ≤ 10 ^ (-(digits : Int)) := by positivity
    have a1 : |w - floatValue fl y| ≤ |d - w| + |d - floatValue fl y| := by
      have := abs_sub_le w d (floatValue fl y)
      rwa [abs_sub_comm w d] at this
    have a2 : |d| ≤ |floatValue fl y| + |d - floatValue fl y| := by
      have := abs_add_le (floatValue fl y) (d - floatValue fl y)
      rwa [add_sub_cancel] at this
    have a3 : 10 ^ (-(digits : Int)) * |d| ≤ 10 ^ (-(digits : Int)) * (|floatValue fl y| + tolerance fl f y) :=
      mul_le_mul_of_nonneg_left (by linarith) hd
    nlinarith

/-- C93. The numbers of each file that one call of `convertNCToNA` writes. -/
theorem C93_run (fmt : Str → Codec F) (table : String → Str) (env : ApiEnv F) (args : NCToNAArgs F)
    {fl : Floats F} (ok : FloatsOk fl) {f : FloatFormat} (hr : Readable fl f)
    (hfmt : fmt args.opts.floatFormat = fl.codec f) (hdel : WsDelim args.opts.delimiter)
    (ho : args.opts.annotation = false) (hh : args.opts.noHeader = false) (hsz : args.opts.sizeLimit = none)
    (hnames : args.onlyNames = false)
    {nc : NCFile F} (hnc : env.openNC args.ncFile = .ok nc) {passes : List (Analysis F)} {ds : List (Dict (PyVal F))}
    (hp : convert env.collect.x env.showTree args.requestedFFI
      (readXarrayFile nc.vars args.varIds args.excludeVars).length
      (readXarrayFile nc.vars args.varIds args.excludeVars) = .ok (some passes))
    (hds : mapRes (collectDict env.collect nc.attrs) passes = .ok ds)
    (hcount : ∀ a ∈ passes, MarksRead env.collect.x (fl.codec f) (rounded fl f) a)
    (hfit : ∀ (i : Nat) a d, passes[i]? = some a → ds[i]? = some d →
      PassFits env args.naItems args.opts.delimiter a d) :
    ∃ names, (convertNCToNA (emitFile fmt table) env args).result = .ok names ∧ names.length = passes.length ∧
      (convertNCToNA (emitFile fmt table) env args).calls.map WriteCall.name = names ∧
      ∀ (i : Nat) a c, passes[i]? = some a → (convertNCToNA (emitFile fmt table) env args).calls[i]? = some c →
        ∃ out o, fileOf fmt table c = .ok out ∧ out.err = none ∧ readFile (fl.codec f) 0 out.text = .ok o ∧
          NumbersPreserved env.collect.x fl f a o := by
  have hone : ∀ l : List F, List.Forall₂ (Preserves fl f) l (l.map (rounded fl f)) := by
    intro l
    induction l with
    | nil => exact .nil
    | cons y l ih => exact .cons (C93_number ok hr y) ih
  have hall : ∀ l : List (XVar F), List.Forall₂ (fun v w => List.Forall₂ (Preserves fl f) (leaves (written env.collect.x v)) w)
      l (l.map (fun v => (leaves (written env.collect.x v)).map (rounded fl f))) := by
    intro l
    induction l with
    | nil => exact .nil
    | cons y l ih => exact .cons (hone _) ih
  obtain ⟨names, e1, e2, -, e3, e4⟩ := C75_run fmt table env args (q := rounded fl f)
    (by rw [hfmt]; exact C89_lawful ok hr) hdel ho hh hsz hnames hnc hp hds (by rw [hfmt]; exact hcount) hfit
  refine ⟨names, e1, e2, e3, fun i a c hi hc => ?_⟩
  obtain ⟨out, o, g1, g2, g3, g4⟩ := e4 i a c hi hc
  rw [hfmt] at g3
  refine ⟨out, o, g1, g2, g3, ?_, fun h1 h2 => ?_, fun h => ?_, g4.missing⟩
  · rw [g4.values]; exact hall _
  · obtain ⟨pre, h, p1, -, p3, -⟩ := g4.aux h1 h2
    exact ⟨pre, _, p1, p3, hall _⟩
  · obtain ⟨v, ax, p1, p2, p3⟩ := g4.axis h
    exact ⟨v, ax, p1, p2, by rw [p3]; exact hone _⟩

/-! ### A concrete case -/

/-- Whole numbers as floats. -/
def Ex.wholeFloats : Floats Int where
  special _ := none
  neg x := decide (x < 0)
  num x := x.natAbs
  den _ := 1
  repr x := Ex.decFloats.repr (.fin (decide (x < 0)) x.natAbs 0)
  near n m e := (if n then -1 else 1) * ((m * 10 ^ e.toNat / 10 ^ (-e).toNat : Nat) : Int)
  ofSpecial _ := 0
  trunc x := some x
  ofInt i := i

theorem Ex.whole_ok : FloatsOk Ex.wholeFloats where
  den_pos _ _ := Nat.one_pos
  special_back x s h := by cases h
  repr_token x := Ex.dec_ok.repr_token (.fin (decide (x < 0)) x.natAbs 0)
  repr_quote x := Ex.dec_ok.repr_quote (.fin (decide (x < 0)) x.natAbs 0)
  repr_parse x := by
    have h := Ex.dec_ok.repr_parse (.fin (decide (x < 0)) x.natAbs 0)
    unfold Floats.parse at h ⊢
    show (match parseDecimal (Ex.decFloats.repr (.fin (decide (x < 0)) x.natAbs 0)) with
        | some p => some (Ex.wholeFloats.near p.1 p.2.1 p.2.2) | none => _) = _
    cases hp : parseDecimal (Ex.decFloats.repr (.fin (decide (x < 0)) x.natAbs 0)) with
    | none =>
      rw [hp] at h
      simp only [Option.map_eq_some_iff] at h
      obtain ⟨s, -, hs⟩ := h
      cases hs
    | some p =>
      rw [hp] at h
      simp only [Ex.decFloats, Option.some.injEq, Ex.Dec.fin.injEq] at h
      obtain ⟨h1, h2, h3⟩ := h
      simp only [Ex.wholeFloats, h1, h2, h3, Option.some.injEq]
      by_cases hx : x < 0
      · simp [hx, abs_of_neg hx]
      · simp [hx, abs_of_nonneg (not_lt.1 hx)]

/-- A run with the number format `%.2g`: two files, whose numbers keep two digits. -/
example : ∃ f, parseFormat "%.2g".toList = some f ∧ Readable Ex.wholeFloats f ∧
    rounded Ex.wholeFloats f (-12345) = -12000 ∧
    ∃ names, (convertNCToNA (emitFile (fun _ => Ex.wholeFloats.codec f) exTable) Ex.sourceApi Ex.sourceArgs).result
      = .ok names ∧ names.length = 2 := by
  refine ⟨plainFormat 0 2 .general false, by decide +kernel, ⟨by decide, .inr (.inl rfl)⟩, by decide +kernel, ?_⟩
  obtain ⟨passes, ds, h1, h2, h3, h4, h5⟩ := Ex.run_of (env := Ex.sourceApi) (args := Ex.sourceArgs) (nc := Ex.source)
    (n := 2) (by decide +kernel)
  obtain ⟨names, e1, e2, _⟩ := C93_run (fun _ => Ex.wholeFloats.codec (plainFormat 0 2 .general false)) exTable Ex.sourceApi Ex.sourceArgs Ex.whole_ok
    (f := plainFormat 0 2 .general false) ⟨by decide, .inr (.inl rfl)⟩ rfl (by decide) rfl rfl rfl rfl (nc := Ex.source) rfl h1 h2
    (fun a ha hf => absurd hf (not_or.2 (h4 a ha))) h5
  exact ⟨names, e1, by omega⟩

end Nappy.Props
