import Verif.FormatLemmas
import Mathlib.Algebra.Order.Field.Power
import Mathlib.Algebra.Order.Ring.Rat
import Mathlib.Tactic.Linarith
import Mathlib.Tactic.FieldSimp
import Mathlib.Tactic.Ring
import Mathlib.Tactic.Positivity

/-! How far a printed number is from the number. -/

namespace Nappy

theorem roundDiv_near (a b : Nat) (hb : 0 < b) : |((roundDiv a b : Nat) : ℚ) - (a : ℚ) / b| ≤ 1 / 2 := by
  have hb' : (0 : ℚ) < b := by exact_mod_cast hb
  have h : (a : ℚ) = b * (a / b : Nat) + (a % b : Nat) := by exact_mod_cast (Nat.div_add_mod a b).symm
  have key : ∀ n : Nat, (2 * (n * b) ≤ 2 * a + b) → (2 * a ≤ 2 * (n * b) + b) → |(n : ℚ) - (a : ℚ) / b| ≤ 1 / 2 := by
    intro n h1 h2
    have h1' : 2 * ((n : ℚ) * b) ≤ 2 * a + b := by exact_mod_cast h1
    have h2' : 2 * (a : ℚ) ≤ 2 * (n * b) + b := by exact_mod_cast h2
    rw [abs_le]
    have e : (n : ℚ) - a / b = (n * b - a) / b := by field_simp
    rw [e]
    constructor
    · rw [le_div_iff₀ hb']; linarith
    · rw [div_le_iff₀ hb']; linarith
  have hm := Nat.div_add_mod a b
  have hl := Nat.mod_lt a hb
  generalize a / b = k at hm
  have hcomm : b * (a / b) = a / b * b := Nat.mul_comm _ _
  have hdm := Nat.div_add_mod a b
  rw [hcomm] at hdm
  unfold roundDiv
  split
  · apply key <;> omega
  · split
    · apply key
      · rw [Nat.add_mul]; omega
      · rw [Nat.add_mul]; omega
    · split
      · apply key <;> omega
      · apply key
        · rw [Nat.add_mul]; omega
        · rw [Nat.add_mul]; omega

theorem scaled_value (k : Int) (num den : Nat) (hd : 0 < den) :
    0 < (scaled k num den).2 ∧ (((scaled k num den).1 : ℚ) / (scaled k num den).2 = (num : ℚ) / den * 10 ^ k) := by
  have hd' : (den : ℚ) ≠ 0 := by exact_mod_cast (Nat.pos_iff_ne_zero.1 hd)
  unfold scaled
  split
  · rename_i h
    refine ⟨hd, ?_⟩
    obtain ⟨n, rfl⟩ := Int.eq_ofNat_of_zero_le h
    simp
    ring
  · rename_i h
    refine ⟨Nat.mul_pos hd (Nat.pow_pos (by decide)), ?_⟩
    obtain ⟨n, hn⟩ := Int.eq_ofNat_of_zero_le (show 0 ≤ -k by omega)
    have : k = -(n : Int) := by omega
    subst this
    simp
    field_simp

theorem natStr_length (n : Nat) : n < 10 ^ (natStr n).length ∧ (n ≠ 0 → 10 ^ (natStr n).length ≤ 10 * n) := by
  induction n using natStr.induct with
  | case1 n h =>
    rw [natStr, if_pos h]
    simp
    omega
  | case2 n h ih =>
    rw [natStr, if_neg h]
    simp only [List.length_append, List.length_singleton, Nat.pow_succ]
    have := ih.2 (by omega)
    omega

theorem natStr_length_rat (n : Nat) (h : n ≠ 0) :
    (n : ℚ) < (10 : ℚ) ^ ((natStr n).length : Int) ∧ (10 : ℚ) ^ ((natStr n).length : Int) ≤ 10 * n := by
  obtain ⟨h1, h2⟩ := natStr_length n
  rw [zpow_natCast]
  exact ⟨by exact_mod_cast h1, by exact_mod_cast h2 h⟩

theorem decExp_spec (num den : Nat) (hn : num ≠ 0) (hd : 0 < den) :
    (10 : ℚ) ^ decExp num den ≤ (num : ℚ) / den ∧ (num : ℚ) / den < (10 : ℚ) ^ (decExp num den + 1) := by
  have hd0 : den ≠ 0 := Nat.pos_iff_ne_zero.1 hd
  have hd' : (0 : ℚ) < den := by exact_mod_cast hd
  obtain ⟨a1, a2⟩ := natStr_length_rat num hn
  obtain ⟨b1, b2⟩ := natStr_length_rat den hd0
  have hs := scaled_value (-(((natStr num).length : Int) - ((natStr den).length : Int))) num den hd
  unfold decExp
  dsimp only
  generalize ((natStr num).length : Int) = a at *
  generalize ((natStr den).length : Int) = b at *
  generalize hS : scaled (-(a - b)) num den = S at *
  obtain ⟨s1, s2⟩ := hs
  have s1' : (0 : ℚ) < S.2 := by exact_mod_cast s1
  have pa : (0 : ℚ) < 10 ^ a := by positivity
  have pb : (0 : ℚ) < 10 ^ b := by positivity
  have pk : (0 : ℚ) < 10 ^ (a - b) := by positivity
  have hk : (10 : ℚ) ^ (a - b) = 10 ^ a / 10 ^ b := zpow_sub₀ (by norm_num) a b
  have hS' : (S.1 : ℚ) / S.2 = num / den / 10 ^ (a - b) := by
    rw [s2, zpow_neg]; rfl
  have hup : (num : ℚ) / den < 10 ^ (a - b + 1) := by
    rw [zpow_add₀ (by norm_num), hk, zpow_one, div_lt_iff₀ hd', div_mul_eq_mul_div, div_mul_eq_mul_div, lt_div_iff₀ pb]
    nlinarith
  have hlo : (10 : ℚ) ^ (a - b - 1) ≤ num / den := by
    rw [zpow_sub₀ (by norm_num), hk, zpow_one, le_div_iff₀ hd', div_div, div_mul_eq_mul_div, div_le_iff₀ (by positivity)]
    nlinarith
  show (10 : ℚ) ^ (if S.2 ≤ S.1 then a - b else a - b - 1) ≤ (num : ℚ) / den ∧
    (num : ℚ) / den < (10 : ℚ) ^ ((if S.2 ≤ S.1 then a - b else a - b - 1) + 1)
  split
  · rename_i h
    have h' : (S.2 : ℚ) ≤ S.1 := by exact_mod_cast h
    have : (1 : ℚ) ≤ S.1 / S.2 := by rw [le_div_iff₀ s1']; linarith
    rw [hS', le_div_iff₀ pk] at this
    exact ⟨by linarith, hup⟩
  · rename_i h
    have h' : (S.1 : ℚ) < S.2 := by exact_mod_cast (Nat.lt_of_not_le h)
    have : (S.1 : ℚ) / S.2 < 1 := by rw [div_lt_iff₀ s1']; linarith
    rw [hS', div_lt_iff₀ pk] at this
    refine ⟨hlo, ?_⟩
    rw [show a - b - 1 + 1 = a - b by omega]
    linarith

/-- `sci` keeps `digits` digits, the first of which is not zero, and is off by at most half of the last. -/
theorem sci_spec (digits num den : Nat) (hg : 0 < digits) (hn : num ≠ 0) (hd : 0 < den) :
    10 ^ (digits - 1) ≤ (sci digits num den).1 ∧ (sci digits num den).1 < 10 ^ digits ∧
    |((sci digits num den).1 : ℚ) * 10 ^ ((sci digits num den).2 - (digits - 1 : Nat)) - (num : ℚ) / den| ≤
      1 / 2 * 10 ^ ((sci digits num den).2 - (digits - 1 : Nat)) := by
  obtain ⟨x1, x2⟩ := decExp_spec num den hn hd
  unfold sci
  rw [if_neg hn]
  dsimp only
  generalize decExp num den = x at *
  obtain ⟨n, rfl⟩ : ∃ n, digits = n + 1 := ⟨digits - 1, by omega⟩
  obtain ⟨s1, s2⟩ := scaled_value (((n + 1 : Nat) : Int) - 1 - x) num den hd
  have hx : ((n + 1 : Nat) : Int) - 1 - x = -(x - (n : Int)) := by push_cast; omega
  rw [hx] at s1 s2 ⊢
  generalize scaled (-(x - (n : Int))) num den = S at *
  have hr := roundDiv_near S.1 S.2 s1
  rw [s2] at hr
  generalize roundDiv S.1 S.2 = m at *
  simp only [Nat.add_sub_cancel]
  have pu : (0 : ℚ) < 10 ^ (x - (n : Int)) := by positivity
  -- the number in units of the last digit
  have hv : ∀ m : ℚ, m * 10 ^ (x - (n : Int)) - (num : ℚ) / den =
      (m - (num : ℚ) / den * 10 ^ (-(x - (n : Int)))) * 10 ^ (x - (n : Int)) := by
    intro m
    rw [zpow_neg]
    field_simp
  have herr : |(m : ℚ) * 10 ^ (x - (n : Int)) - (num : ℚ) / den| ≤ 1 / 2 * 10 ^ (x - (n : Int)) := by
    rw [hv, abs_mul, abs_of_pos pu]
    exact mul_le_mul_of_nonneg_right hr pu.le
  have hlow : ((10 ^ n : Nat) : ℚ) ≤ (num : ℚ) / den * 10 ^ (-(x - (n : Int))) := by
    rw [zpow_neg, ← div_eq_mul_inv, le_div_iff₀ pu]
    push_cast
    rw [← zpow_natCast, ← zpow_add₀ (by norm_num)]
    rw [show (n : Int) + (x - n) = x by omega]
    exact x1
  have hupp : (num : ℚ) / den * 10 ^ (-(x - (n : Int))) < ((10 ^ (n + 1) : Nat) : ℚ) := by
    rw [zpow_neg, ← div_eq_mul_inv, div_lt_iff₀ pu]
    push_cast
    rw [← zpow_natCast, ← zpow_add₀ (by norm_num)]
    rw [show ((n + 1 : Nat) : Int) + (x - n) = x + 1 by push_cast; omega]
    exact x2
  rw [abs_le] at hr
  have hm1 : 10 ^ n ≤ m := by
    by_contra hc
    have : m + 1 ≤ 10 ^ n := by omega
    have : ((m + 1 : Nat) : ℚ) ≤ ((10 ^ n : Nat) : ℚ) := by exact_mod_cast this
    push_cast at this hlow
    linarith [hr.1]
  have hm2 : m ≤ 10 ^ (n + 1) := by
    by_contra hc
    have : 10 ^ (n + 1) + 1 ≤ m := by omega
    have : ((10 ^ (n + 1) + 1 : Nat) : ℚ) ≤ ((m : Nat) : ℚ) := by exact_mod_cast this
    push_cast at this hupp
    linarith [hr.2]
  split
  · rename_i h
    refine ⟨Nat.le_refl _, Nat.pow_lt_pow_right (by decide) (Nat.lt_succ_self n), ?_⟩
    have e1 : (10 : ℚ) ^ (x + 1 - (n : Int)) = 10 * 10 ^ (x - (n : Int)) := by
      rw [show x + 1 - (n : Int) = 1 + (x - n) by omega, zpow_add₀ (by norm_num), zpow_one]
    have e2 : ((10 ^ n : Nat) : ℚ) * 10 ^ (x + 1 - (n : Int)) = (m : ℚ) * 10 ^ (x - (n : Int)) := by
      rw [e1, h]; push_cast; ring
    rw [e2, e1]
    refine le_trans herr ?_
    linarith
  · rename_i h
    exact ⟨hm1, by omega, herr⟩

theorem trimZeros_value : ∀ (d m : Nat), (trimZeros d m).1 ≤ d ∧
    ((trimZeros d m).2 : ℚ) * 10 ^ (-((trimZeros d m).1 : Int)) = (m : ℚ) * 10 ^ (-(d : Int))
  | 0, m => by simp [trimZeros]
  | d + 1, m => by
    unfold trimZeros
    split
    · rename_i h
      obtain ⟨h1, h2⟩ := trimZeros_value d (m / 10)
      refine ⟨by omega, ?_⟩
      rw [h2]
      have : m = 10 * (m / 10) := by omega
      have h3 : (m : ℚ) = 10 * ((m / 10 : Nat) : ℚ) := by exact_mod_cast this
      rw [h3, show (-((d + 1 : Nat) : Int)) = -(d : Int) + -1 by push_cast; omega, zpow_add₀ (by norm_num)]
      norm_num
      ring
    · exact ⟨Nat.le_refl _, rfl⟩

/-- The error of `sci`, measured by the first digit of the number itself. -/
theorem sci_error (digits num den : Nat) (hg : 0 < digits) (hn : num ≠ 0) (hd : 0 < den) :
    |((sci digits num den).1 : ℚ) * 10 ^ ((sci digits num den).2 - (digits - 1 : Nat)) - (num : ℚ) / den| ≤
      1 / 2 * 10 ^ (decExp num den - (digits - 1 : Nat)) := by
  unfold sci
  rw [if_neg hn]
  dsimp only
  generalize decExp num den = x at *
  obtain ⟨n, rfl⟩ : ∃ n, digits = n + 1 := ⟨digits - 1, by omega⟩
  obtain ⟨s1, s2⟩ := scaled_value (((n + 1 : Nat) : Int) - 1 - x) num den hd
  have hx : ((n + 1 : Nat) : Int) - 1 - x = -(x - (n : Int)) := by push_cast; omega
  rw [hx] at s1 s2 ⊢
  generalize scaled (-(x - (n : Int))) num den = S at *
  have hr := roundDiv_near S.1 S.2 s1
  rw [s2] at hr
  generalize roundDiv S.1 S.2 = m at *
  simp only [Nat.add_sub_cancel]
  have pu : (0 : ℚ) < 10 ^ (x - (n : Int)) := by positivity
  have hv : (m : ℚ) * 10 ^ (x - (n : Int)) - (num : ℚ) / den =
      (m - (num : ℚ) / den * 10 ^ (-(x - (n : Int)))) * 10 ^ (x - (n : Int)) := by
    rw [zpow_neg]
    field_simp
  have herr : |(m : ℚ) * 10 ^ (x - (n : Int)) - (num : ℚ) / den| ≤ 1 / 2 * 10 ^ (x - (n : Int)) := by
    rw [hv, abs_mul, abs_of_pos pu]
    exact mul_le_mul_of_nonneg_right hr pu.le
  split
  · rename_i h
    have e1 : (10 : ℚ) ^ (x + 1 - (n : Int)) = 10 * 10 ^ (x - (n : Int)) := by
      rw [show x + 1 - (n : Int) = 1 + (x - n) by omega, zpow_add₀ (by norm_num), zpow_one]
    have e2 : ((10 ^ n : Nat) : ℚ) * 10 ^ (x + 1 - (n : Int)) = (m : ℚ) * 10 ^ (x - (n : Int)) := by
      rw [e1, h]; push_cast; ring
    rw [e2]
    exact herr
  · exact herr

/-- A whole number next to `a / b` that is closer than one half is the rounded number. -/
theorem roundDiv_eq (a b k : Nat) (hb : 0 < b) (h : |(k : ℚ) - (a : ℚ) / b| < 1 / 2) : roundDiv a b = k := by
  have h1 := roundDiv_near a b hb
  rw [abs_le] at h1
  rw [abs_lt] at h
  have a1 : ((roundDiv a b : Nat) : ℚ) < ((k + 1 : Nat) : ℚ) := by push_cast; linarith [h1.2, h.1]
  have a2 : ((k : Nat) : ℚ) < ((roundDiv a b + 1 : Nat) : ℚ) := by push_cast; linarith [h1.1, h.2]
  have a1' : roundDiv a b < k + 1 := by exact_mod_cast a1
  have a2' : k < roundDiv a b + 1 := by exact_mod_cast a2
  omega

/-- A number that is very close to one with `digits` digits is rounded to it. -/
theorem sci_eq (digits num den M : Nat) (X : Int) (hg : 0 < digits) (hn : num ≠ 0) (hd : 0 < den)
    (h1 : 10 ^ (digits - 1) ≤ M) (h2 : M < 10 ^ digits)
    (h : 4 * |(M : ℚ) * 10 ^ (X - (digits - 1 : Nat)) - (num : ℚ) / den| ≤
      10 ^ (-(digits : Int)) * ((M : ℚ) * 10 ^ (X - (digits - 1 : Nat)))) : sci digits num den = (M, X) := by
  obtain ⟨x1, x2⟩ := decExp_spec num den hn hd
  obtain ⟨n, rfl⟩ : ∃ n, digits = n + 1 := ⟨digits - 1, by omega⟩
  simp only [Nat.add_sub_cancel] at h h1
  have key : ∀ x : Int, decExp num den = x → sci (n + 1) num den =
      (if roundDiv (scaled (-(x - (n : Int))) num den).1 (scaled (-(x - (n : Int))) num den).2 = 10 ^ (n + 1)
        then (10 ^ n, x + 1)
        else (roundDiv (scaled (-(x - (n : Int))) num den).1 (scaled (-(x - (n : Int))) num den).2, x)) := by
    intro x hx
    unfold sci
    rw [if_neg hn]
    dsimp only
    rw [hx, show ((n + 1 : Nat) : Int) - 1 - x = -(x - (n : Int)) by push_cast; omega]
    rfl
  have hround : ∀ (x : Int) (k : Nat), |(k : ℚ) * 10 ^ (x - (n : Int)) - (num : ℚ) / den| < 1 / 2 * 10 ^ (x - (n : Int)) →
      roundDiv (scaled (-(x - (n : Int))) num den).1 (scaled (-(x - (n : Int))) num den).2 = k := by
    intro x k hk
    obtain ⟨s1, s2⟩ := scaled_value (-(x - (n : Int))) num den hd
    apply roundDiv_eq _ _ _ s1
    rw [s2]
    have pu : (0 : ℚ) < 10 ^ (x - (n : Int)) := by positivity
    have hv : (k : ℚ) * 10 ^ (x - (n : Int)) - (num : ℚ) / den =
        (k - (num : ℚ) / den * 10 ^ (-(x - (n : Int)))) * 10 ^ (x - (n : Int)) := by
      rw [zpow_neg]
      field_simp
    rw [hv, abs_mul, abs_of_pos pu] at hk
    exact lt_of_mul_lt_mul_right hk pu.le
  have pu : (0 : ℚ) < 10 ^ (X - (n : Int)) := by positivity
  have M1 : ((10 : ℚ) ^ n) ≤ M := by exact_mod_cast h1
  have M2 : (M : ℚ) + 1 ≤ 10 ^ (n + 1) := by exact_mod_cast h2
  have eX : (10 : ℚ) ^ X = 10 ^ n * 10 ^ (X - (n : Int)) := by
    rw [← zpow_natCast, ← zpow_add₀ (by norm_num)]; congr 1; omega
  have eX1 : (10 : ℚ) ^ (X + 1) = 10 ^ (n + 1) * 10 ^ (X - (n : Int)) := by
    rw [← zpow_natCast, ← zpow_add₀ (by norm_num)]; congr 1; push_cast; omega
  have hsmall : (10 : ℚ) ^ (-((n + 1 : Nat) : Int)) * 10 ^ (n + 1) = 1 := by
    rw [← zpow_natCast, ← zpow_add₀ (by norm_num)]; norm_num
  have pt : (0 : ℚ) < 10 ^ (-((n + 1 : Nat) : Int)) := by positivity
  have hle1 : (10 : ℚ) ^ (-((n + 1 : Nat) : Int)) ≤ 1 / 10 := by
    have : (10 : ℚ) ≤ 10 ^ (n + 1) := by
      have : 10 ^ 1 ≤ 10 ^ (n + 1) := Nat.pow_le_pow_right (by decide) (by omega)
      exact_mod_cast this
    nlinarith
  -- the distance in units of the last digit
  have hw : (10 : ℚ) ^ (-((n + 1 : Nat) : Int)) * ((M : ℚ) * 10 ^ (X - (n : Int))) < 10 ^ (X - (n : Int)) := by
    have : (10 : ℚ) ^ (-((n + 1 : Nat) : Int)) * M < 1 := by nlinarith
    nlinarith
  generalize hv : (num : ℚ) / den = v at *
  generalize hu : (10 : ℚ) ^ (X - (n : Int)) = u at *
  generalize ht : (10 : ℚ) ^ (-((n + 1 : Nat) : Int)) = t at *
  have hclose : |(M : ℚ) * u - v| < 1 / 4 * u := by linarith
  have hclose2 := abs_lt.1 hclose
  have hup : v < 10 ^ (X + 1) := by rw [eX1]; nlinarith
  have hlo : (10 : ℚ) ^ (X - 1) < v := by
    have e : (10 : ℚ) ^ (X - 1) = 10 ^ X / 10 := by rw [zpow_sub₀ (by norm_num), zpow_one]
    have hM : (10 : ℚ) ^ X ≤ M * u := by rw [eX]; exact mul_le_mul_of_nonneg_right M1 pu.le
    have pX : (0 : ℚ) < 10 ^ X := by positivity
    have h4 := (abs_le.1 (show |(M : ℚ) * u - v| ≤ 1 / 4 * (t * (M * u)) by linarith)).2
    rw [e]
    nlinarith
  have hxle : decExp num den < X + 1 := by
    have : (10 : ℚ) ^ decExp num den < 10 ^ (X + 1) := lt_of_le_of_lt x1 hup
    exact (zpow_lt_zpow_iff_right₀ (by norm_num)).1 this
  have hxge : X - 1 < decExp num den + 1 := by
    have : (10 : ℚ) ^ (X - 1) < 10 ^ (decExp num den + 1) := lt_trans hlo x2
    exact (zpow_lt_zpow_iff_right₀ (by norm_num)).1 this
  rcases (show decExp num den = X ∨ decExp num den = X - 1 by omega) with hx | hx
  · rw [key X hx]
    have hr := hround X M (by rw [hu]; linarith)
    rw [hr, if_neg (by omega)]
  · have hM : M = 10 ^ n := by
      rw [hx, show X - 1 + 1 = X by omega, eX] at x2
      by_contra hne
      have : 10 ^ n + 1 ≤ M := by omega
      have : ((10 : ℚ) ^ n) + 1 ≤ M := by exact_mod_cast this
      nlinarith [hclose2.1, hclose2.2]
    rw [key (X - 1) hx]
    have hr := hround (X - 1) (10 ^ (n + 1)) (by
      have e : (10 : ℚ) ^ (X - 1 - (n : Int)) = u / 10 := by
        rw [show X - 1 - (n : Int) = (X - n) - 1 by omega, zpow_sub₀ (by norm_num), zpow_one, hu]
      rw [e]
      have e2 : ((10 ^ (n + 1) : Nat) : ℚ) * (u / 10) = (M : ℚ) * u := by
        rw [hM]; push_cast; ring
      rw [e2]
      have : t * (M * u) = u / 10 := by
        have : t * (10 ^ n * 10) = 1 := by rw [← pow_succ]; exact hsmall
        rw [hM]; push_cast
        have e3 : t * (10 ^ n * u) = (t * (10 ^ n * 10)) * (u / 10) := by ring
        rw [e3, this, one_mul]
      rw [this] at h
      linarith)
    rw [hr, if_pos rfl, hM]
    simp

end Nappy
