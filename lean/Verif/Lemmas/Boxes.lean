import Verif.Model.Bicycle
import Mathlib.Analysis.Complex.Exponential
import Mathlib.Analysis.Complex.Trigonometric
import Mathlib.Analysis.SpecialFunctions.Trigonometric.Bounds
import Mathlib.Tactic.Linarith
import Mathlib.Tactic.NormNum
import Mathlib.Algebra.Order.Ring.Rat

/-!
Closed ranges with rational ends: sum, difference and product, and ranges that hold the cosine and the sine of a rational
number between -1 and 1.  Used in the proofs about the dictionaries of `parameter_dicts.py`.
-/

namespace BP

/-- A closed range of real numbers with rational ends (no counterpart in the code, see parameter_dicts.py:1-27). -/
structure Box where
  lo : ℚ
  hi : ℚ

namespace Box

/-- The number lies in the range. -/
def Has (b : Box) (x : ℝ) : Prop := (b.lo : ℝ) ≤ x ∧ x ≤ (b.hi : ℝ)

/-- Arithmetic of ranges, for the proofs; no counterpart in the code. -/
def pt (q : ℚ) : Box := ⟨q, q⟩
/-- Arithmetic of ranges, for the proofs; no counterpart in the code. -/
def add (a b : Box) : Box := ⟨a.lo + b.lo, a.hi + b.hi⟩
/-- Arithmetic of ranges, for the proofs; no counterpart in the code. -/
def neg (a : Box) : Box := ⟨-a.hi, -a.lo⟩
/-- Arithmetic of ranges, for the proofs; no counterpart in the code. -/
def sub (a b : Box) : Box := ⟨a.lo - b.hi, a.hi - b.lo⟩
/-- Arithmetic of ranges, for the proofs; no counterpart in the code. -/
def mul (a b : Box) : Box :=
  ⟨min (min (a.lo * b.lo) (a.lo * b.hi)) (min (a.hi * b.lo) (a.hi * b.hi)),
   max (max (a.lo * b.lo) (a.lo * b.hi)) (max (a.hi * b.lo) (a.hi * b.hi))⟩

instance : Add Box := ⟨add⟩
instance : Neg Box := ⟨neg⟩
instance : Sub Box := ⟨sub⟩
instance : Mul Box := ⟨mul⟩

theorem has_pt (q : ℚ) : (pt q).Has (q : ℝ) := ⟨le_refl _, le_refl _⟩

theorem Has.add {a b : Box} {x y : ℝ} (h : a.Has x) (k : b.Has y) : (a + b).Has (x + y) := by
  constructor
  · show ((a.lo + b.lo : ℚ) : ℝ) ≤ _
    push_cast; exact add_le_add h.1 k.1
  · show _ ≤ ((a.hi + b.hi : ℚ) : ℝ)
    push_cast; exact add_le_add h.2 k.2

theorem Has.neg {a : Box} {x : ℝ} (h : a.Has x) : (-a).Has (-x) := by
  constructor
  · show ((-a.hi : ℚ) : ℝ) ≤ _
    push_cast; exact neg_le_neg h.2
  · show _ ≤ ((-a.lo : ℚ) : ℝ)
    push_cast; exact neg_le_neg h.1

theorem Has.sub {a b : Box} {x y : ℝ} (h : a.Has x) (k : b.Has y) : (a - b).Has (x - y) := by
  constructor
  · show ((a.lo - b.hi : ℚ) : ℝ) ≤ _
    push_cast; exact sub_le_sub h.1 k.2
  · show _ ≤ ((a.hi - b.lo : ℚ) : ℝ)
    push_cast; exact sub_le_sub h.2 k.1

theorem line_le {a b x y : ℝ} (h : a ≤ x ∧ x ≤ b) : x * y ≤ max (a * y) (b * y) := by
  rcases le_total 0 y with hy | hy
  · exact le_max_of_le_right (mul_le_mul_of_nonneg_right h.2 hy)
  · exact le_max_of_le_left (mul_le_mul_of_nonpos_right h.1 hy)

theorem le_line {a b x y : ℝ} (h : a ≤ x ∧ x ≤ b) : min (a * y) (b * y) ≤ x * y := by
  rcases le_total 0 y with hy | hy
  · exact min_le_of_left_le (mul_le_mul_of_nonneg_right h.1 hy)
  · exact min_le_of_right_le (mul_le_mul_of_nonpos_right h.2 hy)

theorem Has.mul {a b : Box} {x y : ℝ} (h : a.Has x) (k : b.Has y) : (a * b).Has (x * y) := by
  have up : ∀ t : ℝ, t * y ≤ max (t * b.lo) (t * b.hi) := fun t => by
    have := line_le (y := t) k
    rwa [mul_comm y, mul_comm (b.lo : ℝ), mul_comm (b.hi : ℝ)] at this
  have dn : ∀ t : ℝ, min (t * b.lo) (t * b.hi) ≤ t * y := fun t => by
    have := le_line (y := t) k
    rwa [mul_comm y, mul_comm (b.lo : ℝ), mul_comm (b.hi : ℝ)] at this
  constructor
  · show ((min (min (a.lo * b.lo) (a.lo * b.hi)) (min (a.hi * b.lo) (a.hi * b.hi)) : ℚ) : ℝ) ≤ _
    push_cast
    exact (min_le_min (dn _) (dn _)).trans (le_line h)
  · show _ ≤ ((max (max (a.lo * b.lo) (a.lo * b.hi)) (max (a.hi * b.lo) (a.hi * b.hi)) : ℚ) : ℝ)
    push_cast
    exact (line_le h).trans (max_le_max (up _) (up _))

theorem Has.pos {a : Box} {x : ℝ} (h : a.Has x) (k : 0 < a.lo) : 0 < x :=
  lt_of_lt_of_le (by exact_mod_cast k) h.1

theorem Has.negative {a : Box} {x : ℝ} (h : a.Has x) (k : a.hi < 0) : x < 0 :=
  lt_of_le_of_lt h.2 (by exact_mod_cast k)

/-! ## Cosine and sine -/

/-- Arithmetic of ranges, for the proofs; no counterpart in the code. -/
def cosPoly (x : ℚ) : ℚ :=
  1 - x ^ 2 / 2 + x ^ 4 / 24 - x ^ 6 / 720 + x ^ 8 / 40320 - x ^ 10 / 3628800 + x ^ 12 / 479001600 -
    x ^ 14 / 87178291200
/-- Arithmetic of ranges, for the proofs; no counterpart in the code. -/
def sinPoly (x : ℚ) : ℚ :=
  x - x ^ 3 / 6 + x ^ 5 / 120 - x ^ 7 / 5040 + x ^ 9 / 362880 - x ^ 11 / 39916800 + x ^ 13 / 6227020800 -
    x ^ 15 / 1307674368000
/-- rests on the bound `|x| ^ 16 * 17 / (16! * 16)` -/
def trigErr (x : ℚ) : ℚ := x ^ 16 * 17 / 334764638208000
/-- Arithmetic of ranges, for the proofs; no counterpart in the code. -/
def cosBox (x : ℚ) : Box := ⟨cosPoly x - trigErr x, cosPoly x + trigErr x⟩
/-- Arithmetic of ranges, for the proofs; no counterpart in the code. -/
def sinBox (x : ℚ) : Box := ⟨sinPoly x - trigErr x, sinPoly x + trigErr x⟩

theorem exp_near (x : ℚ) (hx : |x| ≤ 1) :
    ‖Complex.exp ((x : ℝ) * Complex.I) - ((cosPoly x : ℝ) + (sinPoly x : ℝ) * Complex.I)‖ ≤ (trigErr x : ℝ) := by
  have hx' : ‖((x : ℝ) : ℂ) * Complex.I‖ ≤ 1 := by
    rw [norm_mul, Complex.norm_I, mul_one, Complex.norm_real, Real.norm_eq_abs]
    exact_mod_cast hx
  have h := Complex.exp_bound hx' (n := 16) (by norm_num)
  have hs : (∑ m ∈ Finset.range 16, (((x : ℝ) : ℂ) * Complex.I) ^ m / (m.factorial : ℂ)) =
      (cosPoly x : ℝ) + (sinPoly x : ℝ) * Complex.I := by
    have h2 : Complex.I ^ 2 = -1 := Complex.I_sq
    have h3 : Complex.I ^ 3 = -Complex.I := by rw [pow_succ, h2]; ring
    have h4 : Complex.I ^ 4 = 1 := by rw [show (4 : ℕ) = 2 * 2 from rfl, pow_mul, h2]; ring
    simp only [Finset.sum_range_succ, Finset.sum_range_zero, mul_pow]
    rw [show Complex.I ^ 15 = -Complex.I by rw [show (15 : ℕ) = 4 * 3 + 3 from rfl, pow_add, pow_mul, h4, h3]; ring,
      show Complex.I ^ 14 = -1 by rw [show (14 : ℕ) = 4 * 3 + 2 from rfl, pow_add, pow_mul, h4, h2]; ring,
      show Complex.I ^ 13 = Complex.I by rw [show (13 : ℕ) = 4 * 3 + 1 from rfl, pow_add, pow_mul, h4]; ring,
      show Complex.I ^ 12 = 1 by rw [show (12 : ℕ) = 4 * 3 from rfl, pow_mul, h4]; ring,
      show Complex.I ^ 11 = -Complex.I by rw [show (11 : ℕ) = 4 * 2 + 3 from rfl, pow_add, pow_mul, h4, h3]; ring,
      show Complex.I ^ 10 = -1 by rw [show (10 : ℕ) = 4 * 2 + 2 from rfl, pow_add, pow_mul, h4, h2]; ring,
      show Complex.I ^ 9 = Complex.I by rw [show (9 : ℕ) = 4 * 2 + 1 from rfl, pow_add, pow_mul, h4]; ring,
      show Complex.I ^ 8 = 1 by rw [show (8 : ℕ) = 4 * 2 from rfl, pow_mul, h4]; ring,
      show Complex.I ^ 7 = -Complex.I by rw [show (7 : ℕ) = 4 + 3 from rfl, pow_add, h4, h3]; ring,
      show Complex.I ^ 6 = -1 by rw [show (6 : ℕ) = 4 + 2 from rfl, pow_add, h4, h2]; ring,
      show Complex.I ^ 5 = Complex.I by rw [show (5 : ℕ) = 4 + 1 from rfl, pow_add, h4]; ring,
      h4, h3, h2]
    simp only [Nat.factorial, cosPoly, sinPoly]
    push_cast
    ring
  rw [hs] at h
  refine h.trans (le_of_eq ?_)
  rw [norm_mul, Complex.norm_I, mul_one, Complex.norm_real, Real.norm_eq_abs]
  have h16 : |(x : ℝ)| ^ 16 = (x : ℝ) ^ 16 := by
    rw [← abs_pow, abs_of_nonneg (by positivity)]
  rw [h16, trigErr]
  push_cast [Nat.factorial]
  ring

theorem has_cos (x : ℚ) (hx : |x| ≤ 1) : (cosBox x).Has (Real.cos x) := by
  have h := (Complex.abs_re_le_norm _).trans (exp_near x hx)
  rw [Complex.sub_re, Complex.exp_ofReal_mul_I_re] at h
  have e : (((cosPoly x : ℝ) : ℂ) + (sinPoly x : ℝ) * Complex.I).re = (cosPoly x : ℝ) := by
    rw [Complex.add_re, Complex.re_ofReal_mul]; simp
  rw [e, abs_le] at h
  constructor
  · show ((cosPoly x - trigErr x : ℚ) : ℝ) ≤ _
    push_cast; linarith [h.1]
  · show _ ≤ ((cosPoly x + trigErr x : ℚ) : ℝ)
    push_cast; linarith [h.2]

theorem has_sin (x : ℚ) (hx : |x| ≤ 1) : (sinBox x).Has (Real.sin x) := by
  have h := (Complex.abs_im_le_norm _).trans (exp_near x hx)
  rw [Complex.sub_im, Complex.exp_ofReal_mul_I_im] at h
  have e : (((cosPoly x : ℝ) : ℂ) + (sinPoly x : ℝ) * Complex.I).im = (sinPoly x : ℝ) := by
    rw [Complex.add_im, Complex.im_ofReal_mul]; simp
  rw [e, abs_le] at h
  constructor
  · show ((sinPoly x - trigErr x : ℚ) : ℝ) ≤ _
    push_cast; linarith [h.1]
  · show _ ≤ ((sinPoly x + trigErr x : ℚ) : ℝ)
    push_cast; linarith [h.2]

/-! ## Quotients, and cosine and sine of a range -/

/-- The quotient by a range of positive numbers, for the proofs; no counterpart in the code. -/
def div (a b : Box) : Box := a * ⟨1 / b.hi, 1 / b.lo⟩

instance : Div Box := ⟨div⟩

theorem Has.div {a b : Box} {x y : ℝ} (h : a.Has x) (k : b.Has y) (hb : 0 < b.lo) : (a / b).Has (x / y) := by
  have hl : (0 : ℝ) < b.lo := by exact_mod_cast hb
  have hy : 0 < y := hl.trans_le k.1
  have hi : (⟨1 / b.hi, 1 / b.lo⟩ : Box).Has (1 / y) := by
    constructor
    · show ((1 / b.hi : ℚ) : ℝ) ≤ _
      push_cast; exact one_div_le_one_div_of_le hy k.2
    · show _ ≤ ((1 / b.lo : ℚ) : ℝ)
      push_cast; exact one_div_le_one_div_of_le hl k.1
  rw [div_eq_mul_one_div x y]
  exact h.mul hi

/-- The square of a number of the range, for the proofs; no counterpart in the code. -/
def sq (a : Box) : Box := a * a

theorem Has.sq {a : Box} {x : ℝ} (h : a.Has x) : a.sq.Has (x ^ 2) := by
  rw [_root_.sq]; exact h.mul h

/-- The range made wider by `r` on both sides, for the proofs; no counterpart in the code. -/
def widen (a : Box) (r : ℚ) : Box := ⟨a.lo - r, a.hi + r⟩

theorem Has.widen {a : Box} {x y : ℝ} {r : ℚ} (h : a.Has x) (k : |y - x| ≤ (r : ℝ)) : (a.widen r).Has y := by
  rw [abs_le] at k
  constructor
  · show ((a.lo - r : ℚ) : ℝ) ≤ _
    push_cast; linarith [h.1, k.1]
  · show _ ≤ ((a.hi + r : ℚ) : ℝ)
    push_cast; linarith [h.2, k.2]

/-- The middle of a range, for the proofs; no counterpart in the code. -/
def mid (a : Box) : ℚ := (a.lo + a.hi) / 2
/-- Half the width of a range, for the proofs; no counterpart in the code. -/
def rad (a : Box) : ℚ := (a.hi - a.lo) / 2
/-- A range for the cosine, for the proofs; no counterpart in the code. -/
def cos (a : Box) : Box := (cosBox a.mid).widen a.rad
/-- A range for the sine, for the proofs; no counterpart in the code. -/
def sin (a : Box) : Box := (sinBox a.mid).widen a.rad

theorem Has.near {a : Box} {x : ℝ} (h : a.Has x) : |x - (a.mid : ℝ)| ≤ (a.rad : ℝ) := by
  have h1 := h.1
  have h2 := h.2
  rw [abs_le, mid, rad]
  push_cast
  constructor <;> linarith

theorem Has.cos {a : Box} {x : ℝ} (h : a.Has x) (hm : |a.mid| ≤ 1) : a.cos.Has (Real.cos x) :=
  (has_cos a.mid hm).widen ((Real.abs_cos_sub_cos_le _ _).trans h.near)

theorem Has.sin {a : Box} {x : ℝ} (h : a.Has x) (hm : |a.mid| ≤ 1) : a.sin.Has (Real.sin x) :=
  (has_sin a.mid hm).widen ((Real.abs_sin_sub_sin_le _ _).trans h.near)

end Box

end BP
