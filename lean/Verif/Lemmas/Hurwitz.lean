import Mathlib.Analysis.Polynomial.Factorization
import Mathlib.Analysis.Complex.Basic
import Mathlib.Analysis.SpecialFunctions.Complex.Log
import Mathlib.Tactic.LinearCombination
import Mathlib.Tactic.Linarith
import Mathlib.Tactic.FieldSimp

/-!
# The Routh-Hurwitz criterion for polynomials of degree four
-/

namespace BP

open Polynomial

/-- Roots of a real quadratic with a negative real part. -/
theorem quadratic_stable (p q : ℝ) :
    (∀ l : ℂ, l ^ 2 + p * l + q = 0 → l.re < 0) ↔ 0 < p ∧ 0 < q := by
  constructor
  · intro h
    by_cases hd : 0 ≤ p ^ 2 - 4 * q
    · have hs := Real.mul_self_sqrt hd
      have hs0 := Real.sqrt_nonneg (p ^ 2 - 4 * q)
      set s := √(p ^ 2 - 4 * q) with hsdef
      have root : ∀ e : ℝ, e ^ 2 = p ^ 2 - 4 * q → (-p + e) / 2 < 0 := by
        intro e he
        have hz : (((-p + e) / 2 : ℝ) : ℂ) ^ 2 + p * ((-p + e) / 2 : ℝ) + q = 0 := by
          have : ((-p + e) / 2) ^ 2 + p * ((-p + e) / 2) + q = 0 := by linear_combination he / 4
          exact_mod_cast this
        have := h _ hz
        simpa using this
      have h1 := root s (by rw [pow_two]; exact hs)
      have h2 := root (-s) (by rw [neg_sq, pow_two]; exact hs)
      have hp : 0 < p := by linarith
      refine ⟨hp, ?_⟩
      have : s < p := by linarith
      nlinarith
    · push Not at hd
      have hs := Real.mul_self_sqrt (show 0 ≤ 4 * q - p ^ 2 by linarith)
      set s := √(4 * q - p ^ 2) with hsdef
      have hz : (⟨-p / 2, s / 2⟩ : ℂ) ^ 2 + p * ⟨-p / 2, s / 2⟩ + q = 0 := by
        apply Complex.ext
        · simp [pow_two]; nlinarith
        · simp [pow_two]; ring
      have := h _ hz
      simp only at this
      refine ⟨by linarith, by nlinarith [sq_nonneg p]⟩
  · rintro ⟨hp, hq⟩ l hl
    by_contra hc
    push Not at hc
    have hre := congrArg Complex.re hl
    have him := congrArg Complex.im hl
    simp only [pow_two, Complex.add_re, Complex.mul_re, Complex.ofReal_re, Complex.ofReal_im, zero_mul, sub_zero,
      Complex.zero_re, Complex.add_im, Complex.mul_im, add_zero, Complex.zero_im] at hre him
    have hf : l.im * (2 * l.re + p) = 0 := by linear_combination him
    rcases mul_eq_zero.1 hf with h0 | h0
    · rw [h0] at hre
      nlinarith
    · linarith

/-- Every real quartic is a product of two real quadratics. -/
theorem quartic_factors (a b c d : ℝ) : ∃ p q r s : ℝ, a = p + r ∧ b = q + s + p * r ∧ c = p * s + q * r ∧ d = q * s := by
  have hf : IsMonicOfDegree (X ^ 4 + C a * X ^ 3 + C b * X ^ 2 + C c * X + C d : ℝ[X]) (2 + 2) := by
    have h4 : IsMonicOfDegree (X ^ 4 : ℝ[X]) (2 + 2) := isMonicOfDegree_X_pow ℝ 4
    have hlow : (C a * X ^ 3 + C b * X ^ 2 + C c * X + C d : ℝ[X]).natDegree < 2 + 2 := by
      have : (C a * X ^ 3 + C b * X ^ 2 + C c * X + C d : ℝ[X]).natDegree ≤ 3 := natDegree_cubic_le
      omega
    have := h4.add_right hlow
    simpa only [← add_assoc] using this
  obtain ⟨f, g, hf1, hg1, h⟩ := hf.eq_isMonicOfDegree_two_mul_isMonicOfDegree
  obtain ⟨p, q, rfl⟩ := isMonicOfDegree_two_iff.1 hf1
  obtain ⟨r, s, rfl⟩ := isMonicOfDegree_two_iff.1 hg1
  have hx : ∀ x : ℝ, x ^ 4 + a * x ^ 3 + b * x ^ 2 + c * x + d = (x ^ 2 + p * x + q) * (x ^ 2 + r * x + s) := by
    intro x
    have := congrArg (eval x) h
    simpa using this
  have h0 := hx 0
  have h1 := hx 1
  have h2 := hx (-1)
  have h3 := hx 2
  have h4 := hx (-2)
  refine ⟨p, q, r, s, ?_, ?_, ?_, ?_⟩ <;> linarith

/-- Routh-Hurwitz for a monic real quartic. -/
theorem quartic_stable (a b c d : ℝ) :
    (∀ l : ℂ, l ^ 4 + a * l ^ 3 + b * l ^ 2 + c * l + d = 0 → l.re < 0) ↔
      0 < a ∧ 0 < b ∧ 0 < c ∧ 0 < d ∧ c ^ 2 + d * a ^ 2 < a * b * c := by
  obtain ⟨p, q, r, s, rfl, rfl, rfl, rfl⟩ := quartic_factors a b c d
  have hsplit : (∀ l : ℂ, l ^ 4 + ((p + r : ℝ) : ℂ) * l ^ 3 + ((q + s + p * r : ℝ) : ℂ) * l ^ 2 +
      ((p * s + q * r : ℝ) : ℂ) * l + ((q * s : ℝ) : ℂ) = 0 → l.re < 0) ↔
      (∀ l : ℂ, l ^ 2 + p * l + q = 0 → l.re < 0) ∧ ∀ l : ℂ, l ^ 2 + r * l + s = 0 → l.re < 0 := by
    have hid : ∀ l : ℂ, l ^ 4 + ((p + r : ℝ) : ℂ) * l ^ 3 + ((q + s + p * r : ℝ) : ℂ) * l ^ 2 +
        ((p * s + q * r : ℝ) : ℂ) * l + ((q * s : ℝ) : ℂ) = (l ^ 2 + p * l + q) * (l ^ 2 + r * l + s) := by
      intro l; push_cast; ring
    constructor
    · intro h
      exact ⟨fun l hl => h l (by rw [hid, hl, zero_mul]), fun l hl => h l (by rw [hid, hl, mul_zero])⟩
    · rintro ⟨h1, h2⟩ l hl
      rw [hid] at hl
      rcases mul_eq_zero.1 hl with hl | hl
      · exact h1 l hl
      · exact h2 l hl
  rw [hsplit, quadratic_stable, quadratic_stable]
  have hH : (p + r) * (q + s + p * r) * (p * s + q * r) - ((p * s + q * r) ^ 2 + q * s * (p + r) ^ 2) =
      p * r * ((q - s) ^ 2 + (p + r) * (p * s + q * r)) := by ring
  constructor
  · rintro ⟨⟨hp, hq⟩, hr, hs⟩
    have : 0 < p * r * ((q - s) ^ 2 + (p + r) * (p * s + q * r)) := by positivity
    exact ⟨by positivity, by positivity, by positivity, by positivity, by linarith⟩
  · rintro ⟨ha, hb, hc, hd, hh⟩
    have hb' : 0 < (q - s) ^ 2 + (p + r) * (p * s + q * r) := by positivity
    have hpr : 0 < p * r := by
      have : 0 < p * r * ((q - s) ^ 2 + (p + r) * (p * s + q * r)) := by linarith
      exact (pos_iff_pos_of_mul_pos this).2 hb'
    have hp : 0 < p := by
      by_contra hn
      push Not at hn
      have : 0 < r := by linarith
      nlinarith
    have hr : 0 < r := (pos_iff_pos_of_mul_pos hpr).1 hp
    have hq : 0 < q := by
      by_contra hn
      push Not at hn
      have hs : s < 0 := by
        by_contra hs
        push Not at hs
        nlinarith
      nlinarith [mul_nonneg hr.le (neg_nonneg.2 hn), mul_pos hp (neg_pos.2 hs)]
    exact ⟨⟨hp, hq⟩, hr, (pos_iff_pos_of_mul_pos hd).1 hq⟩

/-- Routh-Hurwitz for a real quartic with a positive leading coefficient. -/
theorem hurwitz (e a b c d : ℝ) (he : 0 < e) :
    (∀ l : ℂ, e * l ^ 4 + a * l ^ 3 + b * l ^ 2 + c * l + d = 0 → l.re < 0) ↔
      0 < a ∧ 0 < b ∧ 0 < c ∧ 0 < d ∧ e * c ^ 2 + d * a ^ 2 < a * b * c := by
  have hne : (e : ℂ) ≠ 0 := by exact_mod_cast he.ne'
  have heq : (∀ l : ℂ, e * l ^ 4 + a * l ^ 3 + b * l ^ 2 + c * l + d = 0 → l.re < 0) ↔
      ∀ l : ℂ, l ^ 4 + ((a / e : ℝ) : ℂ) * l ^ 3 + ((b / e : ℝ) : ℂ) * l ^ 2 + ((c / e : ℝ) : ℂ) * l +
        ((d / e : ℝ) : ℂ) = 0 → l.re < 0 := by
    have hid : ∀ l : ℂ, e * l ^ 4 + a * l ^ 3 + b * l ^ 2 + c * l + d = e * (l ^ 4 + ((a / e : ℝ) : ℂ) * l ^ 3 +
        ((b / e : ℝ) : ℂ) * l ^ 2 + ((c / e : ℝ) : ℂ) * l + ((d / e : ℝ) : ℂ)) := by
      intro l; push_cast; field_simp
    constructor
    · intro h l hl
      exact h l (by rw [hid, hl, mul_zero])
    · intro h l hl
      rw [hid] at hl
      exact h l ((mul_eq_zero.1 hl).resolve_left hne)
  rw [heq, quartic_stable]
  have h5 : (c / e) ^ 2 + d / e * (a / e) ^ 2 < a / e * (b / e) * (c / e) ↔ e * c ^ 2 + d * a ^ 2 < a * b * c := by
    have h1 : (c / e) ^ 2 + d / e * (a / e) ^ 2 = (e * c ^ 2 + d * a ^ 2) / e ^ 3 := by field_simp
    have h2 : a / e * (b / e) * (c / e) = a * b * c / e ^ 3 := by field_simp
    rw [h1, h2, div_lt_div_iff_of_pos_right (by positivity)]
  rw [h5]
  simp only [div_pos_iff_of_pos_right he]

end BP
