import Verif.Spec.Precision
import Verif.RoundLemmas
import Verif.Props.Copy

/-! C89. Numbers are written with the precision that `float_format` promises. -/

namespace Nappy.Props

open Nappy Nappy.Spec

variable {F : Type}

/-! ### Lemmas -/

theorem parseDecimal_strip {s t : Str} (h : strip s = strip t) : parseDecimal s = parseDecimal t := by
  unfold parseDecimal; rw [h]

theorem parse_strip (fl : Floats F) {s t : Str} (h : strip s = strip t) : fl.parse s = fl.parse t := by
  unfold Floats.parse parseSpecial
  rw [parseDecimal_strip h, h]

theorem strip_word {l t r : Str} (hl : ∀ c ∈ l, c = ' ') (hr : ∀ c ∈ r, c = ' ') (ht : Token t) :
    strip (l ++ t ++ r) = strip t := by
  have hs : ∀ c ∈ t, isSpace c = false := fun c hc => (ht.2 c hc).1
  rw [strip_padded hl hr hs ht.1, strip_eq_self _ (trimmed_of_no_space t hs)]

/-- The digits and the exponent that are printed for a magnitude. -/
def printedDigits (f : FloatFormat) (num den : Nat) : Nat × Int :=
  match f.conv with
  | .fixed => (roundDiv (num * 10 ^ places f) den, -(places f : Int))
  | _ => ((sci (keptDigits f) num den).1, (sci (keptDigits f) num den).2 - (keptDigits f - 1 : Nat))

theorem numText_general {f : FloatFormat} (hc : f.conv = .general) (num den : Nat) :
    numText f num den =
      if -4 ≤ (sci (max 1 (f.prec.getD 6)) num den).2 ∧
        (sci (max 1 (f.prec.getD 6)) num den).2 < (max 1 (f.prec.getD 6) : Nat) then
        mantissa f.alt
          (if f.alt then ((((max 1 (f.prec.getD 6) : Nat) : Int) - 1 - (sci (max 1 (f.prec.getD 6)) num den).2).toNat,
              (sci (max 1 (f.prec.getD 6)) num den).1)
            else trimZeros (((max 1 (f.prec.getD 6) : Nat) : Int) - 1 - (sci (max 1 (f.prec.getD 6)) num den).2).toNat
              (sci (max 1 (f.prec.getD 6)) num den).1).1
          (if f.alt then ((((max 1 (f.prec.getD 6) : Nat) : Int) - 1 - (sci (max 1 (f.prec.getD 6)) num den).2).toNat,
              (sci (max 1 (f.prec.getD 6)) num den).1)
            else trimZeros (((max 1 (f.prec.getD 6) : Nat) : Int) - 1 - (sci (max 1 (f.prec.getD 6)) num den).2).toNat
              (sci (max 1 (f.prec.getD 6)) num den).1).2
      else
        mantissa f.alt
          (if f.alt then (max 1 (f.prec.getD 6) - 1, (sci (max 1 (f.prec.getD 6)) num den).1)
            else trimZeros (max 1 (f.prec.getD 6) - 1) (sci (max 1 (f.prec.getD 6)) num den).1).1
          (if f.alt then (max 1 (f.prec.getD 6) - 1, (sci (max 1 (f.prec.getD 6)) num den).1)
            else trimZeros (max 1 (f.prec.getD 6) - 1) (sci (max 1 (f.prec.getD 6)) num den).1).2 ++
          expPart f.upper (sci (max 1 (f.prec.getD 6)) num den).2 := by
  unfold numText
  rw [hc]

/-- The printed text of a finite number, read as a decimal number. -/
theorem format_decimal (fl : Floats F) (f : FloatFormat) (hf : f.conv ≠ .str) (x : F) (hx : fl.special x = none) :
    ∃ m e, parseDecimal (fl.format f x) = some (fl.neg x, m, e) ∧
      (m : ℚ) * 10 ^ e = ((printedDigits f (fl.num x) (fl.den x)).1 : ℚ) *
        10 ^ (printedDigits f (fl.num x) (fl.den x)).2 := by
  have main : ∀ {m d : Nat} {E : Str} {e : Int}, numText f (fl.num x) (fl.den x) = mantissa f.alt d m ++ E → Tail E e →
      (∀ c ∈ E, numChar c = true) → parseDecimal (fl.format f x) = some (fl.neg x, m, e - d) := by
    intro m d E e hn hE hE'
    obtain ⟨l, t, r, h1, h2, h3, h4, h5⟩ := format_finite fl f hf x hx hn hE hE'
    rw [h1, parseDecimal_strip (strip_word h2 h3 h4), h5]
  have nl : ∀ c ∈ ([] : Str), numChar c = true := by simp
  cases hc : f.conv with
  | str => exact absurd hc hf
  | fixed =>
    refine ⟨_, _, main (E := []) (by simp only [numText, hc, List.append_nil]; rfl) (Or.inl ⟨rfl, rfl⟩) nl, ?_⟩
    simp only [printedDigits, hc, places, Int.zero_sub]
  | exp =>
    refine ⟨_, _, main (by simp only [numText, hc]; rfl) (expPart_tail _ _) (expPart_chars _ _), ?_⟩
    simp only [printedDigits, hc, keptDigits, places, Nat.add_sub_cancel]
  | general =>
    have hk : keptDigits f = max 1 (f.prec.getD 6) := by simp only [keptDigits, hc, places]
    have hpos : 1 ≤ max 1 (f.prec.getD 6) := Nat.le_max_left _ _
    simp only [printedDigits, hc, hk]
    have hn := numText_general hc (fl.num x) (fl.den x)
    generalize max 1 (f.prec.getD 6) = p at *
    generalize sci p (fl.num x) (fl.den x) = s at *
    by_cases hs : -4 ≤ s.2 ∧ s.2 < p
    · rw [if_pos hs] at hn
      refine ⟨_, _, main (E := []) (by rw [List.append_nil]; exact hn) (Or.inl ⟨rfl, rfl⟩) nl, ?_⟩
      have hd : ((((p : Int) - 1 - s.2).toNat : Nat) : Int) = p - 1 - s.2 := Int.toNat_of_nonneg (by omega)
      have he : s.2 - ((p - 1 : Nat) : Int) = -((((p : Int) - 1 - s.2).toNat : Nat) : Int) := by omega
      rw [he]
      cases f.alt
      · simp only [Bool.false_eq_true, if_false, Int.zero_sub]
        exact (trimZeros_value _ _).2
      · simp only [if_true, Int.zero_sub]
    · rw [if_neg hs] at hn
      refine ⟨_, _, main hn (expPart_tail _ _) (expPart_chars _ _), ?_⟩
      cases f.alt
      · simp only [Bool.false_eq_true, if_false]
        rw [sub_eq_add_neg, sub_eq_add_neg, zpow_add₀ (by norm_num), zpow_add₀ (by norm_num), mul_left_comm,
          (trimZeros_value _ _).2, mul_left_comm]
      · simp only [if_true]

theorem value_diff (fl : Floats F) (x : F) (m : Nat) (e : Int) :
    |decimalValue (fl.neg x) m e - floatValue fl x| = |(m : ℚ) * 10 ^ e - (fl.num x : ℚ) / fl.den x| := by
  unfold decimalValue floatValue
  rw [← mul_sub, abs_mul]
  cases fl.neg x <;> simp

theorem value_abs (fl : Floats F) (x : F) : |floatValue fl x| = (fl.num x : ℚ) / fl.den x := by
  unfold floatValue
  rw [abs_mul, abs_of_nonneg (show (0 : ℚ) ≤ (fl.num x : ℚ) / fl.den x by positivity)]
  cases fl.neg x <;> simp

/-- The text of a number depends only on its sign and on the digits that are printed. -/
theorem format_same (fl : Floats F) (f : FloatFormat) (hf : f.conv ≠ .str) {x y : F} (hx : fl.special x = none)
    (hy : fl.special y = none) (hn : fl.neg y = fl.neg x)
    (h : if f.conv = .fixed then roundDiv (fl.num y * 10 ^ places f) (fl.den y) = roundDiv (fl.num x * 10 ^ places f) (fl.den x)
      else sci (keptDigits f) (fl.num y) (fl.den y) = sci (keptDigits f) (fl.num x) (fl.den x)) :
    fl.format f y = fl.format f x := by
  have ht : numText f (fl.num y) (fl.den y) = numText f (fl.num x) (fl.den x) := by
    unfold numText
    cases hc : f.conv with
    | str => rfl
    | fixed => rw [hc, if_pos rfl] at h; simp only [places] at h; simp only [h]
    | exp => rw [hc, if_neg (by decide)] at h; simp only [keptDigits, hc, places] at h; simp only [h]
    | general => rw [hc, if_neg (by decide)] at h; simp only [keptDigits, hc, places] at h; simp only [h]
  unfold Floats.format
  rw [hx, hy, hn, ht]
  split
  · rename_i h; exact absurd h hf
  · rfl

/-! ### Theorems -/

/-- C89. With every format that gives readable numbers, the number operations have the properties that the rest of the
proofs assume, `rounded` being the rounding. -/
theorem C89_lawful {fl : Floats F} (ok : FloatsOk fl) {f : FloatFormat} (hr : Readable fl f) :
    (fl.codec f).Lawful (rounded fl f) where
  sfmt_token := ok.repr_token
  sfmt_quote := ok.repr_quote
  sfmt_parse := ok.repr_parse
  ffmt_token := by
    intro x
    have fin : ∀ {l t r : Str}, fl.format f x = l ++ t ++ r → (∀ c ∈ l, c = ' ') → (∀ c ∈ r, c = ' ') → Token t →
        (fl.parse t).isSome = true → ∃ l t r, (fl.codec f).ffmt x = l ++ t ++ r ∧ (∀ c ∈ l, c = ' ') ∧
          (∀ c ∈ r, c = ' ') ∧ Token t ∧ (fl.codec f).parse t = some (rounded fl f x) := by
      intro l t r h1 h2 h3 h4 h5
      refine ⟨l, t, r, h1, h2, h3, h4, ?_⟩
      show fl.parse t = _
      unfold rounded
      rw [h1, parse_strip fl (strip_word h2 h3 h4)]
      obtain ⟨y, hy⟩ := Option.isSome_iff_exists.1 h5
      rw [hy]; rfl
    by_cases hs : f.conv = .str
    · obtain ⟨l, r, h1, h2, h3⟩ := format_str fl f hs (hr.1 hs) x
      exact fin h1 h2 h3 (ok.repr_token x) (by rw [ok.repr_parse x]; rfl)
    · cases hx : fl.special x with
      | none =>
        obtain ⟨d, m, E, e, h1, h2, h3⟩ := numText_parts f hs (fl.num x) (fl.den x)
        obtain ⟨l, t, r, g1, g2, g3, g4, g5⟩ := format_finite fl f hs x hx h1 h2 h3
        exact fin g1 g2 g3 g4 (by unfold Floats.parse; rw [g5]; rfl)
      | some s =>
        have hz : f.zero = false ∨ f.left = true := by
          rcases hr.2 with h | h | h | h
          · exact absurd h hs
          · exact Or.inl h
          · exact Or.inr h
          · rw [h x] at hx; cases hx
        obtain ⟨l, t, r, g1, g2, g3, g4, g5, g6⟩ := format_special fl f hs hz x hx
        exact fin g1 g2 g3 g4 (by unfold Floats.parse; rw [g5, g6]; rfl)

/-- C89. Numbers that are not finite are read back as they are, and so is every number written with `%s`. -/
theorem C89_special {fl : Floats F} (ok : FloatsOk fl) {f : FloatFormat} (hr : Readable fl f) {x : F}
    (h : fl.special x ≠ none ∨ f.conv = .str) : rounded fl f x = x := by
  by_cases hs : f.conv = .str
  · obtain ⟨l, r, h1, h2, h3⟩ := format_str fl f hs (hr.1 hs) x
    unfold rounded
    rw [h1, parse_strip fl (strip_word h2 h3 (ok.repr_token x)), ok.repr_parse x]
    rfl
  · have hx := h.resolve_right hs
    cases hx' : fl.special x with
    | none => exact absurd hx' hx
    | some s =>
      have hz : f.zero = false ∨ f.left = true := by
        rcases hr.2 with h | h | h | h
        · exact absurd h hs
        · exact Or.inl h
        · exact Or.inr h
        · exact absurd (h x) hx
      obtain ⟨l, t, r, g1, g2, g3, g4, g5, g6⟩ := format_special fl f hs hz x hx'
      unfold rounded
      rw [g1, parse_strip fl (strip_word g2 g3 g4)]
      unfold Floats.parse
      rw [g5, g6]
      exact ok.special_back x s hx'

/-- C89. `%.pf`: a finite number is written as a decimal number that differs by at most half a unit of the last decimal
place, and what is read back is the float next to that number. -/
theorem C89_fixed {fl : Floats F} (ok : FloatsOk fl) {f : FloatFormat} (hf : f.conv = .fixed) {x : F}
    (hx : fl.special x = none) :
    ∃ m e, parseDecimal (fl.format f x) = some (fl.neg x, m, e) ∧ rounded fl f x = fl.near (fl.neg x) m e ∧
      |decimalValue (fl.neg x) m e - floatValue fl x| ≤ 1 / 2 * 10 ^ (-(places f : Int)) := by
  obtain ⟨m, e, h1, h2⟩ := format_decimal fl f (by rw [hf]; decide) x hx
  refine ⟨m, e, h1, by unfold rounded Floats.parse; rw [h1]; rfl, ?_⟩
  have hd := ok.den_pos x hx
  have hr := roundDiv_near (fl.num x * 10 ^ places f) (fl.den x) hd
  simp only [printedDigits, hf] at h2
  rw [value_diff, h2]
  generalize roundDiv (fl.num x * 10 ^ places f) (fl.den x) = k at *
  have pu : (0 : ℚ) < 10 ^ (-(places f : Int)) := by positivity
  have e1 : ((k : Nat) : ℚ) * 10 ^ (-(places f : Int)) - (fl.num x : ℚ) / fl.den x =
      (k - ((fl.num x * 10 ^ places f : Nat) : ℚ) / fl.den x) * 10 ^ (-(places f : Int)) := by
    push_cast
    rw [zpow_neg, zpow_natCast]
    field_simp
  rw [e1, abs_mul, abs_of_pos pu]
  exact mul_le_mul_of_nonneg_right hr pu.le

/-- C89. `%.pe` and `%.pg`: a finite number is written as a decimal number that differs by at most five units behind the
last digit that is kept, relative to the number. What is read back is the float next to that decimal number. -/
theorem C89_relative {fl : Floats F} (ok : FloatsOk fl) {f : FloatFormat} (hf : f.conv = .exp ∨ f.conv = .general) {x : F}
    (hx : fl.special x = none) :
    ∃ m e, parseDecimal (fl.format f x) = some (fl.neg x, m, e) ∧ rounded fl f x = fl.near (fl.neg x) m e ∧
      |decimalValue (fl.neg x) m e - floatValue fl x| ≤ 5 * 10 ^ (-(keptDigits f : Int)) * |floatValue fl x| := by
  have hs : f.conv ≠ .str := by rcases hf with h | h <;> rw [h] <;> decide
  have hfix : f.conv ≠ .fixed := by rcases hf with h | h <;> rw [h] <;> decide
  obtain ⟨m, e, h1, h2⟩ := format_decimal fl f hs x hx
  refine ⟨m, e, h1, by unfold rounded Floats.parse; rw [h1]; rfl, ?_⟩
  have hd := ok.den_pos x hx
  have hp : printedDigits f (fl.num x) (fl.den x) = ((sci (keptDigits f) (fl.num x) (fl.den x)).1,
      (sci (keptDigits f) (fl.num x) (fl.den x)).2 - (keptDigits f - 1 : Nat)) := by
    unfold printedDigits
    split
    · rename_i h; exact absurd h hfix
    · rfl
  have hk : 0 < keptDigits f := by
    unfold keptDigits
    split
    · exact Nat.lt_of_lt_of_le Nat.zero_lt_one (Nat.le_max_left _ _)
    · exact Nat.succ_pos _
  rw [hp] at h2
  rw [value_diff, value_abs, h2]
  by_cases hn : fl.num x = 0
  · simp [hn, sci]
  · have he := sci_error (keptDigits f) (fl.num x) (fl.den x) hk hn hd
    refine le_trans he ?_
    have hx := (decExp_spec (fl.num x) (fl.den x) hn hd).1
    have e1 : (10 : ℚ) ^ (decExp (fl.num x) (fl.den x) - ((keptDigits f - 1 : Nat) : Int)) =
        10 * 10 ^ (-(keptDigits f : Int)) * 10 ^ decExp (fl.num x) (fl.den x) := by
      rw [show decExp (fl.num x) (fl.den x) - ((keptDigits f - 1 : Nat) : Int) =
        1 + -(keptDigits f : Int) + decExp (fl.num x) (fl.den x) by omega, zpow_add₀ (by norm_num),
        zpow_add₀ (by norm_num), zpow_one]
    rw [e1]
    have pk : (0 : ℚ) < 10 ^ (-(keptDigits f : Int)) := by positivity
    nlinarith

/-- C89. `%.pf`: a number with at most `p` decimals is written as it is. -/
theorem C89_exact_fixed {fl : Floats F} (ok : FloatsOk fl) {f : FloatFormat} (hf : f.conv = .fixed) {x : F}
    (hx : fl.special x = none) {k : Nat} (hk : floatValue fl x = decimalValue (fl.neg x) k (-(places f : Int))) :
    ∃ m e, parseDecimal (fl.format f x) = some (fl.neg x, m, e) ∧ rounded fl f x = fl.near (fl.neg x) m e ∧
      decimalValue (fl.neg x) m e = floatValue fl x := by
  obtain ⟨m, e, h1, h2⟩ := format_decimal fl f (by rw [hf]; decide) x hx
  refine ⟨m, e, h1, by unfold rounded Floats.parse; rw [h1]; rfl, ?_⟩
  have hd := ok.den_pos x hx
  have hd' : (0 : ℚ) < fl.den x := by exact_mod_cast hd
  have hv : (fl.num x : ℚ) / fl.den x = (k : ℚ) * 10 ^ (-(places f : Int)) := by
    unfold floatValue decimalValue at hk
    cases h : fl.neg x <;> rw [h] at hk <;> simpa using hk
  have hr : roundDiv (fl.num x * 10 ^ places f) (fl.den x) = k := by
    apply roundDiv_eq _ _ _ hd
    have e1 : ((fl.num x * 10 ^ places f : Nat) : ℚ) / fl.den x = k := by
      push_cast
      rw [mul_div_right_comm, hv, mul_assoc, ← zpow_natCast, ← zpow_add₀ (by norm_num)]
      simp
    rw [e1]
    simp
  simp only [printedDigits, hf, hr] at h2
  unfold decimalValue floatValue
  rw [h2, hv]

theorem sci_exact {digits num den k : Nat} {c : Int} (hg : 0 < digits) (hn : num ≠ 0) (hd : 0 < den)
    (hk : k < 10 ^ digits) (hv : (num : ℚ) / den = (k : ℚ) * 10 ^ c) :
    ((sci digits num den).1 : ℚ) * 10 ^ ((sci digits num den).2 - (digits - 1 : Nat)) = (num : ℚ) / den := by
  obtain ⟨x1, x2⟩ := decExp_spec num den hn hd
  unfold sci
  rw [if_neg hn]
  dsimp only
  generalize decExp num den = x at *
  obtain ⟨n, rfl⟩ : ∃ n, digits = n + 1 := ⟨digits - 1, by omega⟩
  obtain ⟨s1, s2⟩ := scaled_value (((n + 1 : Nat) : Int) - 1 - x) num den hd
  have hx : ((n + 1 : Nat) : Int) - 1 - x = -(x - (n : Int)) := by push_cast; omega
  rw [hx] at s1 s2 ⊢
  simp only [Nat.add_sub_cancel]
  have hc : x < c + (n + 1 : Nat) := by
    have h1 : (k : ℚ) * 10 ^ c < 10 ^ (n + 1) * 10 ^ c := by
      have : (k : ℚ) < 10 ^ (n + 1) := by exact_mod_cast hk
      exact mul_lt_mul_of_pos_right this (by positivity)
    have h2 : (10 : ℚ) ^ x < 10 ^ (c + ((n + 1 : Nat) : Int)) := by
      rw [add_comm, zpow_add₀ (by norm_num), zpow_natCast]
      exact lt_of_le_of_lt (by rw [← hv]; exact x1) h1
    exact (zpow_lt_zpow_iff_right₀ (by norm_num)).1 h2
  obtain ⟨j, hj⟩ := Int.eq_ofNat_of_zero_le (show 0 ≤ c - (x - (n : Int)) by push_cast at hc; omega)
  have hint : (num : ℚ) / den * 10 ^ (-(x - (n : Int))) = ((k * 10 ^ j : Nat) : ℚ) := by
    rw [hv, mul_assoc, ← zpow_add₀ (by norm_num), ← sub_eq_add_neg, hj]
    push_cast
    rw [zpow_natCast]
  have hr : roundDiv (scaled (-(x - (n : Int))) num den).1 (scaled (-(x - (n : Int))) num den).2 = k * 10 ^ j := by
    apply roundDiv_eq _ _ _ s1
    rw [s2, hint]
    simp
  rw [hr]
  have hback : ((k * 10 ^ j : Nat) : ℚ) * 10 ^ (x - (n : Int)) = (num : ℚ) / den := by
    rw [← hint, mul_assoc, ← zpow_add₀ (by norm_num)]
    simp
  split
  · rename_i h
    rw [← hback, h]
    push_cast
    rw [show x + 1 - (n : Int) = 1 + (x - n) by omega, zpow_add₀ (by norm_num), zpow_one]
    ring
  · exact hback

/-- C89. `%.pe` and `%.pg`: a number with no more digits than are kept is written as it is. With the default `%.10g`
this is every number of at most ten digits. -/
theorem C89_exact_digits {fl : Floats F} (ok : FloatsOk fl) {f : FloatFormat} (hf : f.conv = .exp ∨ f.conv = .general)
    {x : F} (hx : fl.special x = none) {k : Nat} {c : Int} (hk : k < 10 ^ keptDigits f)
    (hv : floatValue fl x = decimalValue (fl.neg x) k c) :
    ∃ m e, parseDecimal (fl.format f x) = some (fl.neg x, m, e) ∧ rounded fl f x = fl.near (fl.neg x) m e ∧
      decimalValue (fl.neg x) m e = floatValue fl x := by
  have hs : f.conv ≠ .str := by rcases hf with h | h <;> rw [h] <;> decide
  have hfix : f.conv ≠ .fixed := by rcases hf with h | h <;> rw [h] <;> decide
  obtain ⟨m, e, h1, h2⟩ := format_decimal fl f hs x hx
  refine ⟨m, e, h1, by unfold rounded Floats.parse; rw [h1]; rfl, ?_⟩
  have hd := ok.den_pos x hx
  have hp : printedDigits f (fl.num x) (fl.den x) = ((sci (keptDigits f) (fl.num x) (fl.den x)).1,
      (sci (keptDigits f) (fl.num x) (fl.den x)).2 - (keptDigits f - 1 : Nat)) := by
    unfold printedDigits
    split
    · rename_i h; exact absurd h hfix
    · rfl
  have hk0 : 0 < keptDigits f := by
    unfold keptDigits
    split
    · exact Nat.lt_of_lt_of_le Nat.zero_lt_one (Nat.le_max_left _ _)
    · exact Nat.succ_pos _
  have hv' : (fl.num x : ℚ) / fl.den x = (k : ℚ) * 10 ^ c := by
    unfold floatValue decimalValue at hv
    cases h : fl.neg x <;> rw [h] at hv <;> simpa using hv
  rw [hp] at h2
  unfold decimalValue floatValue
  rw [h2]
  by_cases hn : fl.num x = 0
  · simp [hn, sci]
  · rw [sci_exact hk0 hn hd hk hv']

/-- C89. `%.pf`: writing what was read gives the same text again, if the float that was read is closer than half a unit of
the last decimal place to the decimal number in the file. -/
theorem C89_again_fixed {fl : Floats F} (ok : FloatsOk fl) {f : FloatFormat} (hf : f.conv = .fixed) {x : F}
    (hx : fl.special x = none) (hy : fl.special (rounded fl f x) = none) (hneg : fl.neg (rounded fl f x) = fl.neg x)
    {m : Nat} {e : Int} (hm : parseDecimal (fl.format f x) = some (fl.neg x, m, e))
    (hclose : |decimalValue (fl.neg x) m e - floatValue fl (rounded fl f x)| < 1 / 2 * 10 ^ (-(places f : Int))) :
    fl.format f (rounded fl f x) = fl.format f x := by
  obtain ⟨m', e', h1, h2⟩ := format_decimal fl f (by rw [hf]; decide) x hx
  rw [hm] at h1
  simp only [Option.some.injEq, Prod.mk.injEq, true_and] at h1
  obtain ⟨rfl, rfl⟩ := h1
  apply format_same fl f (by rw [hf]; decide) hx hy hneg
  rw [if_pos hf]
  simp only [printedDigits, hf] at h2
  generalize rounded fl f x = y at *
  rw [← hneg, value_diff, h2] at hclose
  apply roundDiv_eq _ _ _ (ok.den_pos y hy)
  have pu : (0 : ℚ) < 10 ^ (-(places f : Int)) := by positivity
  have e1 : ((roundDiv (fl.num x * 10 ^ places f) (fl.den x) : Nat) : ℚ) * 10 ^ (-(places f : Int)) - (fl.num y : ℚ) / fl.den y =
      ((roundDiv (fl.num x * 10 ^ places f) (fl.den x) : Nat) - ((fl.num y * 10 ^ places f : Nat) : ℚ) / fl.den y) *
        10 ^ (-(places f : Int)) := by
    push_cast
    rw [zpow_neg, zpow_natCast]
    field_simp
  rw [e1, abs_mul, abs_of_pos pu] at hclose
  exact lt_of_mul_lt_mul_right hclose pu.le

/-- C89. `%.pe` and `%.pg`: writing what was read gives the same text again, if the float that was read is relatively
closer to the decimal number in the file than a quarter of a unit of the last digit that is kept. Doubles in their
normal range are that close to numbers of up to fifteen digits. -/
theorem C89_again_digits {fl : Floats F} (ok : FloatsOk fl) {f : FloatFormat} (hf : f.conv = .exp ∨ f.conv = .general)
    {x : F} (hx : fl.special x = none) (hy : fl.special (rounded fl f x) = none)
    (hneg : fl.neg (rounded fl f x) = fl.neg x) {m : Nat} {e : Int}
    (hm : parseDecimal (fl.format f x) = some (fl.neg x, m, e))
    (hclose : 4 * |decimalValue (fl.neg x) m e - floatValue fl (rounded fl f x)| ≤
      10 ^ (-(keptDigits f : Int)) * |decimalValue (fl.neg x) m e|) :
    fl.format f (rounded fl f x) = fl.format f x := by
  have hs : f.conv ≠ .str := by rcases hf with h | h <;> rw [h] <;> decide
  have hfix : f.conv ≠ .fixed := by rcases hf with h | h <;> rw [h] <;> decide
  obtain ⟨m', e', h1, h2⟩ := format_decimal fl f hs x hx
  rw [hm] at h1
  simp only [Option.some.injEq, Prod.mk.injEq, true_and] at h1
  obtain ⟨rfl, rfl⟩ := h1
  apply format_same fl f hs hx hy hneg
  rw [if_neg hfix]
  have hp : printedDigits f (fl.num x) (fl.den x) = ((sci (keptDigits f) (fl.num x) (fl.den x)).1,
      (sci (keptDigits f) (fl.num x) (fl.den x)).2 - (keptDigits f - 1 : Nat)) := by
    unfold printedDigits
    split
    · rename_i h; exact absurd h hfix
    · rfl
  have hk0 : 0 < keptDigits f := by
    unfold keptDigits
    split
    · exact Nat.lt_of_lt_of_le Nat.zero_lt_one (Nat.le_max_left _ _)
    · exact Nat.succ_pos _
  rw [hp] at h2
  generalize rounded fl f x = y at *
  have habs : |decimalValue (fl.neg x) m e| = (m : ℚ) * 10 ^ e := by
    unfold decimalValue
    rw [abs_mul, abs_of_nonneg (show (0 : ℚ) ≤ (m : ℚ) * 10 ^ e by positivity)]
    cases fl.neg x <;> simp
  rw [habs, ← hneg, value_diff, h2] at hclose
  have hdy := ok.den_pos y hy
  have hdy' : (0 : ℚ) < fl.den y := by exact_mod_cast hdy
  have pk : (0 : ℚ) < 10 ^ (-(keptDigits f : Int)) := by positivity
  have hk1 : (10 : ℚ) ^ (-(keptDigits f : Int)) ≤ 1 := zpow_le_one_of_nonpos₀ (by norm_num) (by omega)
  by_cases hn : fl.num x = 0
  · have hz : sci (keptDigits f) (fl.num x) (fl.den x) = (0, 0) := by simp [sci, hn]
    rw [hz] at hclose ⊢
    simp only [Nat.cast_zero, zero_mul, mul_zero, zero_sub, abs_neg] at hclose
    have h0 : (fl.num y : ℚ) / fl.den y = 0 := by
      have h1 := abs_nonneg ((fl.num y : ℚ) / fl.den y)
      exact abs_eq_zero.1 (by linarith)
    have h0' : fl.num y = 0 := by
      rcases (div_eq_zero_iff.1 h0) with h | h
      · exact_mod_cast h
      · exact absurd h (ne_of_gt hdy')
    simp [sci, h0']
  · obtain ⟨g1, g2, -⟩ := sci_spec (keptDigits f) (fl.num x) (fl.den x) hk0 hn (ok.den_pos x hx)
    have hny : fl.num y ≠ 0 := by
      intro h0
      rw [h0] at hclose
      have hpos : (0 : ℚ) < (sci (keptDigits f) (fl.num x) (fl.den x)).1 := by
        have : 0 < 10 ^ (keptDigits f - 1) := Nat.pow_pos (by decide)
        exact_mod_cast Nat.lt_of_lt_of_le this g1
      have hw : (0 : ℚ) < ((sci (keptDigits f) (fl.num x) (fl.den x)).1 : ℚ) *
          10 ^ ((sci (keptDigits f) (fl.num x) (fl.den x)).2 - ((keptDigits f - 1 : Nat) : Int)) :=
        mul_pos hpos (by positivity)
      simp only [Nat.cast_zero, zero_div, sub_zero, abs_of_pos hw] at hclose
      nlinarith
    exact sci_eq _ _ _ _ _ hk0 hny hdy g1 g2 hclose

/-- C89. Files: whatever the format of the numbers, a well-formed description is written without an error, and reading
the file gives every number as it comes back from its text. -/
theorem C89_file {fl : Floats F} (ok : FloatsOk fl) {f : FloatFormat} (hr : Readable fl f) {delim : Str}
    (hd : WsDelim delim) {o : Obj F} (h : Faithful (fl.codec f) (rounded fl f) o) :
    (o.write { cd := fl.codec f, delim := delim, ann := none } false).2.err = none ∧
    ∃ n, readFile (fl.codec f) o.ignored.length
      (o.write { cd := fl.codec f, delim := delim, ann := none } false).2.text = .ok (readForm (rounded fl f) n o) :=
  readFile_written (env := { cd := fl.codec f, delim := delim, ann := none }) (C89_lawful ok hr) rfl hd h

/-- C89. With floats that are precise enough, writing what was read gives the same text. -/
theorem C89_again {fl : Floats F} (ok : FloatsOk fl) {f : FloatFormat} (hr : Readable fl f)
    (hf : f.conv = .exp ∨ f.conv = .general) (hp : Precise fl (keptDigits f)) (x : F) :
    fl.format f (rounded fl f x) = fl.format f x := by
  cases hx : fl.special x with
  | some s => rw [C89_special ok hr (Or.inl (by rw [hx]; simp))]
  | none =>
    obtain ⟨m, e, h1, h2, -⟩ := C89_relative ok hf hx
    obtain ⟨p1, p2, p3⟩ := hp (fl.neg x) m e
    exact C89_again_digits ok hf hx (by rw [h2]; exact p1) (by rw [h2]; exact p2) h1 (by rw [h2]; exact p3)

/-- C89. With floats that are precise enough, the copy of a written file is that file, apart from white space at the ends
of comment lines. -/
theorem C89_copy {fl : Floats F} (ok : FloatsOk fl) {f : FloatFormat} (hr : Readable fl f)
    (hf : f.conv = .exp ∨ f.conv = .general) (hp : Precise fl (keptDigits f)) {delim : Str} (hd : WsDelim delim) {o : Obj F}
    (h : Faithful (fl.codec f) (rounded fl f) o) :
    copyFile { cd := fl.codec f, delim := delim, ann := none } o.ignored.length
      (o.write { cd := fl.codec f, delim := delim, ann := none } false).2.text =
      .ok ((trimComments o).write { cd := fl.codec f, delim := delim, ann := none } false).2 :=
  C72_copy_partial (env := { cd := fl.codec f, delim := delim, ann := none }) (C89_lawful ok hr) rfl hd
    (C89_again ok hr hf hp) h

theorem natStr_head (n : Nat) (hn : n ≠ 0) : ∀ c t, natStr n = c :: t → c ≠ '0' := by
  induction n using natStr.induct with
  | case1 n h =>
    intro c t hc
    rw [natStr, if_pos h] at hc
    simp at hc
    rw [← hc.1]
    have : ∀ n, n < 10 → n ≠ 0 → digitChar n ≠ '0' := by decide
    exact this n h hn
  | case2 n h ih =>
    intro c t hc
    rw [natStr, if_neg h] at hc
    cases hs : natStr (n / 10) with
    | nil => exact absurd hs (natStr_ne_nil _)
    | cons c' t' =>
      rw [hs] at hc
      simp at hc
      rw [← hc.1]
      exact ih (by omega) c' t' hs

/-- C89. `%w.pf` and its like mean a width of `w` and `p` decimals or digits, for all `w` and `p`. -/
theorem C89_meaning (w p : Nat) (c : Char) (conv : Conv) (upper : Bool)
    (hc : (c, conv, upper) ∈ [('f', Conv.fixed, false), ('F', .fixed, true), ('e', .exp, false), ('E', .exp, true),
      ('g', .general, false), ('G', .general, true), ('s', .str, false)]) :
    parseFormat ('%' :: ((if w = 0 then [] else natStr w) ++ '.' :: (natStr p ++ [c]))) =
      some (plainFormat w p conv upper) := by
  have hcd : isDigit c = false := by
    simp only [List.mem_cons, List.not_mem_nil, or_false, Prod.mk.injEq] at hc
    rcases hc with ⟨rfl, -⟩ | ⟨rfl, -⟩ | ⟨rfl, -⟩ | ⟨rfl, -⟩ | ⟨rfl, -⟩ | ⟨rfl, -⟩ | ⟨rfl, -⟩ <;> decide
  have hpc : parseConv [c] = some (conv, upper) := by
    simp only [List.mem_cons, List.not_mem_nil, or_false, Prod.mk.injEq] at hc
    rcases hc with ⟨rfl, rfl, rfl⟩ | ⟨rfl, rfl, rfl⟩ | ⟨rfl, rfl, rfl⟩ | ⟨rfl, rfl, rfl⟩ | ⟨rfl, rfl, rfl⟩ |
      ⟨rfl, rfl, rfl⟩ | ⟨rfl, rfl, rfl⟩ <;> rfl
  have hflag : ∀ d, d < 10 → digitChar d ≠ '0' → digitChar d ∉ "-+ 0#".toList := by decide
  have hfl : ∀ s : Str, s = (if w = 0 then [] else natStr w) ++ '.' :: (natStr p ++ [c]) →
      s.takeWhile (fun c => decide (c ∈ "-+ 0#".toList)) = [] ∧ s.dropWhile (fun c => decide (c ∈ "-+ 0#".toList)) = s := by
    intro s hs
    have := takeWhile_stop (fun c => decide (c ∈ "-+ 0#".toList)) [] s (by simp) (by
      intro c' hc'
      rw [hs] at hc'
      by_cases hw : w = 0
      · simp only [if_pos hw, List.nil_append, List.head?_cons, Option.mem_def, Option.some.injEq] at hc'
        subst hc'; decide
      · rw [if_neg hw] at hc'
        cases hn : natStr w with
        | nil => exact absurd hn (natStr_ne_nil _)
        | cons a t =>
          rw [hn] at hc'
          simp only [List.cons_append, List.head?_cons, Option.mem_def, Option.some.injEq] at hc'
          subst hc'
          obtain ⟨d, hd, rfl⟩ := natStr_digits w a (by rw [hn]; simp)
          exact decide_eq_false (hflag d hd (natStr_head w hw _ _ hn)))
    simpa using this
  obtain ⟨a1, a2⟩ := hfl _ rfl
  have hwd : ∀ c ∈ (if w = 0 then [] else natStr w), isDigit c = true := by
    intro c hc
    split at hc
    · simp at hc
    · exact natStr_isDigit w c hc
  obtain ⟨b1, b2⟩ := takeWhile_stop isDigit _ ('.' :: (natStr p ++ [c])) hwd (by simp; decide)
  obtain ⟨c1, c2⟩ := takeWhile_stop isDigit _ [c] (natStr_isDigit p) (by simpa using hcd)
  have hwv : digitsVal 0 (if w = 0 then [] else natStr w) = w := by
    split
    · rename_i h; rw [h]; rfl
    · exact digitsVal_natStr w
  unfold parseFormat
  simp only [a1, a2, b1, b2, c1, c2, hpc, digitsVal_natStr, hwv, plainFormat, Option.map_some, List.not_mem_nil,
    decide_false]

/-! ### Concrete cases -/

/-- Decimal floats of any length, with the special numbers. -/
inductive Ex.Dec
  | fin (neg : Bool) (m : Nat) (e : Int)
  | special (s : Special)
  deriving DecidableEq

def Ex.decFloats : Floats Ex.Dec where
  special x := match x with | .fin _ _ _ => none | .special s => some s
  neg x := match x with | .fin n _ _ => n | .special _ => false
  num x := match x with | .fin _ m e => m * 10 ^ e.toNat | .special _ => 0
  den x := match x with | .fin _ _ e => 10 ^ (-e).toNat | .special _ => 1
  repr x := match x with
    | .fin n m e => (if n then ['-'] else []) ++ (mantissa false 0 m ++ expPart false e)
    | .special s => s.text
  near n m e := .fin n m e
  ofSpecial s := .special s
  trunc x := match x with
    | .fin n m e => some ((if n then -1 else 1) * ((m * 10 ^ e.toNat / 10 ^ (-e).toNat : Nat) : Int))
    | .special _ => none
  ofInt i := .fin (decide (i < 0)) i.natAbs 0

theorem Ex.dec_value (n : Bool) (m : Nat) (e : Int) : floatValue Ex.decFloats (.fin n m e) = decimalValue n m e := by
  unfold floatValue decimalValue
  congr 1
  simp only [Ex.decFloats]
  rcases Int.le_total 0 e with h | h
  · obtain ⟨k, rfl⟩ := Int.eq_ofNat_of_zero_le h
    simp
  · obtain ⟨k, hk⟩ := Int.eq_ofNat_of_zero_le (show 0 ≤ -e by omega)
    have : e = -(k : Int) := by omega
    subst this
    simp [div_eq_mul_inv]

theorem Ex.dec_chars (n : Bool) (m : Nat) (e : Int) : ∀ c ∈ Ex.decFloats.repr (.fin n m e), numChar c = true := by
  intro c hc
  simp only [Ex.decFloats, List.mem_append] at hc
  rcases hc with hc | hc | hc
  · cases n
    · simp at hc
    · simp at hc; rw [hc]; decide
  · rcases mantissa_chars _ _ _ c hc with h | h <;> simp [numChar, h]
  · exact expPart_chars _ _ c hc

theorem Ex.dec_ok : FloatsOk Ex.decFloats where
  den_pos := by
    rintro (⟨n, m, e⟩ | s) h
    · exact Nat.pow_pos (by decide)
    · exact Nat.one_pos
  special_back := by
    rintro (⟨n, m, e⟩ | s) s' h
    · simp [Ex.decFloats] at h
    · simp [Ex.decFloats] at h; subst h; rfl
  repr_token := by
    rintro (⟨n, m, e⟩ | s)
    · refine ⟨?_, fun c hc => ?_⟩
      · obtain ⟨c, t, h, -⟩ := mantissa_head false 0 m
        simp [Ex.decFloats, h]
      · have := numChar_plain (Ex.dec_chars n m e c hc)
        exact ⟨this.1, this.2.1, this.2.2.1, this.2.2.2.1⟩
    · cases s <;> decide
  repr_quote := by
    rintro (⟨n, m, e⟩ | s) hc
    · exact (numChar_plain (Ex.dec_chars n m e _ hc)).2.2.2.2 rfl
    · cases s <;> exact absurd hc (by decide)
  repr_parse := by
    rintro (⟨n, m, e⟩ | s)
    · obtain ⟨c, t, h, hc⟩ := mantissa_head false 0 m
      have hp := parseDecimal_signed (b := if n then ['-'] else []) (neg := n) (t := mantissa false 0 m ++ expPart false e)
        (c := c) (u := t ++ expPart false e) (by cases n <;> decide) (by rw [h]; rfl) hc (by
          intro c hc
          have : numChar c = true := by
            rcases List.mem_append.1 hc with hc | hc
            · rcases mantissa_chars _ _ _ c hc with h | h <;> simp [numChar, h]
            · exact expPart_chars _ _ c hc
          exact (numChar_plain this).1)
      have hm := mantissa_parse false 0 0 m _ _ (expPart_tail false e)
      simp only [List.replicate_zero, List.nil_append] at hm
      rw [hm] at hp
      unfold Floats.parse
      show (match parseDecimal ((if n then ['-'] else []) ++ (mantissa false 0 m ++ expPart false e)) with
        | some p => some (Ex.decFloats.near p.1 p.2.1 p.2.2) | none => _) = _
      rw [hp]
      simp [Ex.decFloats]
    · cases s <;> decide +kernel

theorem Ex.dec_precise (digits : Nat) : Precise Ex.decFloats digits := by
  intro n m e
  refine ⟨rfl, rfl, ?_⟩
  show 4 * |decimalValue n m e - floatValue Ex.decFloats (.fin n m e)| ≤ _
  rw [Ex.dec_value, sub_self, abs_zero, mul_zero]
  positivity

/-- The default of `nappy/config/nappy.ini`. -/
example : parseFormat "%.10g".toList = some (plainFormat 0 10 .general false) := by decide +kernel
example : parseFormat "%6.3f".toList = some (plainFormat 6 3 .fixed false) := by decide +kernel
example : parseFormat "%-+012.4E".toList =
    some { plainFormat 12 4 .exp true with left := true, plus := true, zero := true } := by decide +kernel
example : parseFormat "%d".toList = none := by decide +kernel

example : Ex.decFloats.format (plainFormat 0 10 .general false) (.fin false 123456789012345 (-24)) = "1.23456789e-10".toList := by
  decide +kernel
example : Ex.decFloats.format (plainFormat 10 3 .fixed false) (.fin true 123456 (-4)) = "   -12.346".toList := by
  decide +kernel

example : Readable Ex.decFloats (plainFormat 10 3 .fixed false) ∧ Readable Ex.decFloats (plainFormat 0 10 .general false) :=
  ⟨⟨by decide, Or.inr (Or.inl rfl)⟩, ⟨by decide, Or.inr (Or.inl rfl)⟩⟩

example : (Ex.decFloats.codec (plainFormat 0 10 .general false)).Lawful (rounded Ex.decFloats (plainFormat 0 10 .general false)) :=
  C89_lawful Ex.dec_ok ⟨by decide, Or.inr (Or.inl rfl)⟩

/-- Ten digits are kept exactly. -/
example : ∃ m e, parseDecimal (Ex.decFloats.format (plainFormat 0 10 .general false) (.fin true 1234567891 (-30))) = some (true, m, e) ∧
    rounded Ex.decFloats (plainFormat 0 10 .general false) (.fin true 1234567891 (-30)) = .fin true m e ∧
    decimalValue true m e = floatValue Ex.decFloats (.fin true 1234567891 (-30)) :=
  C89_exact_digits Ex.dec_ok (f := plainFormat 0 10 .general false) (Or.inr rfl) (x := .fin true 1234567891 (-30)) rfl
    (k := 1234567891) (c := -30) (by decide) (Ex.dec_value _ _ _)

example : ∀ x, Ex.decFloats.format (plainFormat 0 10 .general false)
    (rounded Ex.decFloats (plainFormat 0 10 .general false) x) = Ex.decFloats.format (plainFormat 0 10 .general false) x :=
  C89_again Ex.dec_ok ⟨by decide, Or.inr (Or.inl rfl)⟩ (Or.inr rfl) (Ex.dec_precise _)

/-- A file with one variable and more digits than `%.3g` keeps. -/
def Ex.dec1001 : NA1001 Ex.Dec :=
  { c := Nappy.Ex.common 1001, NIV := 1, DX := [.fin false 0 0], XNAME := ["Seconds".toList],
    v := { NV := 1, VSCAL := [.fin false 1 0], VMISS := [.fin true 99990000 (-4)], VNAME := ["O3 (ppb)".toList] },
    com := Nappy.Ex.com, X := [.fin false 0 0, .fin false 123456 (-4)], V := [[.fin true 27182818 (-7), .special .nan]] }

theorem Ex.wf_dec1001 : Wf1001 Ex.dec1001 where
  common := Nappy.Ex.wfCommon _
  ffi := rfl
  niv := rfl
  dx := rfl
  xname := rfl
  xnames := by decide
  vars := by constructor <;> decide
  com := Nappy.Ex.wfCom
  data := by unfold Rect; decide

/-- It is written and read, and the copy of the file is the file again. -/
example : ((Obj.o1001 Ex.dec1001).write
      { cd := Ex.decFloats.codec (plainFormat 0 3 .general false), delim := "    ".toList, ann := none } false).2.err = none ∧
    ∃ n, readFile (Ex.decFloats.codec (plainFormat 0 3 .general false)) 0 ((Obj.o1001 Ex.dec1001).write
      { cd := Ex.decFloats.codec (plainFormat 0 3 .general false), delim := "    ".toList, ann := none } false).2.text =
      .ok (readForm (rounded Ex.decFloats (plainFormat 0 3 .general false)) n (.o1001 Ex.dec1001)) :=
  C89_file Ex.dec_ok ⟨by decide, Or.inr (Or.inl rfl)⟩ (by decide) (o := .o1001 Ex.dec1001) Ex.wf_dec1001

example : rounded Ex.decFloats (plainFormat 0 3 .general false) (.fin true 27182818 (-7)) = .fin true 272 (-2) := by
  decide +kernel

example : copyFile { cd := Ex.decFloats.codec (plainFormat 0 3 .general false), delim := "    ".toList, ann := none } 0
      ((Obj.o1001 Ex.dec1001).write
        { cd := Ex.decFloats.codec (plainFormat 0 3 .general false), delim := "    ".toList, ann := none } false).2.text =
    .ok ((trimComments (.o1001 Ex.dec1001)).write
      { cd := Ex.decFloats.codec (plainFormat 0 3 .general false), delim := "    ".toList, ann := none } false).2 :=
  C89_copy Ex.dec_ok ⟨by decide, Or.inr (Or.inl rfl)⟩ (Or.inr rfl) (Ex.dec_precise _) (by decide) (o := .o1001 Ex.dec1001)
    Ex.wf_dec1001

/-- C89. With zeros in front, numbers that are not finite become unreadable: `'%05.1f' % inf` is `00inf`. -/
theorem C89_zeros_fails : ∃ f, parseFormat "%05.1f".toList = some f ∧ FloatsOk Ex.decFloats ∧
    Ex.decFloats.format f (.special .posInf) = "00inf".toList ∧ ∀ q, ¬ (Ex.decFloats.codec f).Lawful q := by
  refine ⟨_, rfl, Ex.dec_ok, by decide +kernel, ?_⟩
  intro q hq
  obtain ⟨l, t, r, h1, h2, h3, h4, h5⟩ := hq.ffmt_token (.special .posInf)
  have hp := parse_strip Ex.decFloats (strip_word h2 h3 h4)
  have h5' : Ex.decFloats.parse t = some (q (.special .posInf)) := h5
  rw [← h1, h5'] at hp
  exact absurd hp (by
    have : Ex.decFloats.parse "00inf".toList = none := by decide +kernel
    intro h
    have e : ∀ s : Str, s = "00inf".toList → Ex.decFloats.parse s ≠ some (q (.special .posInf)) := by
      rintro s rfl; rw [this]; simp
    exact e _ (by decide +kernel) h)

/-- C89. With a precision, `%s` cuts the text off: another number is read back. -/
theorem C89_cut_fails : ∃ f, parseFormat "%.3s".toList = some f ∧ FloatsOk Ex.decFloats ∧
    Ex.decFloats.format f (.fin false 1234 0) = "123".toList ∧
    rounded Ex.decFloats f (.fin false 1234 0) = .fin false 123 0 :=
  ⟨_, rfl, Ex.dec_ok, by decide +kernel, by decide +kernel⟩

end Nappy.Props
