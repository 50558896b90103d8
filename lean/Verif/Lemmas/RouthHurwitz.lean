import Mathlib.Analysis.Complex.Basic
import Mathlib.Algebra.BigOperators.Fin
import Mathlib.Tactic.LinearCombination
import Mathlib.Tactic.FieldSimp
import Mathlib.Tactic.Positivity

/-!
# The Routh-Hurwitz criterion for real quartics
-/

namespace BP

open ComplexConjugate

theorem re_inv_pos {z : ℂ} (h : 0 < z.re) : 0 < (z⁻¹).re := by
  rw [Complex.inv_re]
  have hz : z ≠ 0 := fun h0 => by simp [h0] at h
  exact div_pos h (Complex.normSq_pos.2 hz)

theorem ne_zero_of_re_pos {z : ℂ} (h : 0 < z.re) : z ≠ 0 := fun h0 => by simp [h0] at h

/-- Sufficiency: positive coefficients and a positive Hurwitz determinant keep the closed right
half plane free of roots. -/
theorem routh_sufficient (a4 a3 a2 a1 a0 : ℝ) (h4 : 0 < a4) (h3 : 0 < a3) (h1 : 0 < a1)
    (h0 : 0 < a0) (hd : 0 < a3 * a2 * a1 - a4 * a1 ^ 2 - a3 ^ 2 * a0) (l : ℂ)
    (hl : (a4 : ℂ) * l ^ 4 + a3 * l ^ 3 + a2 * l ^ 2 + a1 * l + a0 = 0) : l.re < 0 := by
  by_contra hc
  push Not at hc
  rcases hc.eq_or_lt with hre | hre
  · obtain ⟨x, y⟩ := l
    simp only at hre
    subst hre
    have hr := congrArg Complex.re hl
    have hi := congrArg Complex.im hl
    simp [pow_succ] at hr hi
    have hy : y * (a1 - a3 * y ^ 2) = 0 := by linear_combination hi
    rcases mul_eq_zero.1 hy with h | h
    · subst h; simp at hr; linarith
    · have e : a3 * y ^ 2 = a1 := by linarith
      have : a3 * a2 * a1 - a4 * a1 ^ 2 - a3 ^ 2 * a0 = 0 := by
        rw [← e]
        linear_combination (-(a3 ^ 2)) * hr
      linarith
  · set b : ℝ := a2 - a4 * a1 / a3 with hb
    have hb1 : 0 < b * a1 * a3 ^ 1 - a3 ^ 2 * a0 := by
      have : b * a1 * a3 ^ 1 - a3 ^ 2 * a0 = a3 * a2 * a1 - a4 * a1 ^ 2 - a3 ^ 2 * a0 := by
        rw [hb]; field_simp
      linarith
    have hbp : 0 < b := by
      by_contra hn
      push Not at hn
      have : b * a1 * a3 ^ 1 ≤ 0 := by
        have := mul_pos h1 h3
        nlinarith
      nlinarith [mul_pos (pow_pos h3 2) h0]
    set c : ℝ := a1 - a3 * a0 / b with hc'
    have hcp : 0 < c := by
      have : c = (b * a1 * a3 ^ 1 - a3 ^ 2 * a0) / (b * a3) := by
        rw [hc']; field_simp
      rw [this]; positivity
    have hl0 : l ≠ 0 := ne_zero_of_re_pos hre
    have sc : ∀ r : ℝ, 0 < r → 0 < ((r : ℂ) * l).re := by
      intro r hr; simp; positivity
    set z4 : ℂ := ((c / a0 : ℝ) : ℂ) * l with hz4
    have p4 : 0 < z4.re := sc _ (by positivity)
    set z3 : ℂ := ((b / c : ℝ) : ℂ) * l + z4⁻¹ with hz3
    have p3 : 0 < z3.re := by
      rw [hz3, Complex.add_re]; exact add_pos (sc _ (by positivity)) (re_inv_pos p4)
    set z2 : ℂ := ((a3 / b : ℝ) : ℂ) * l + z3⁻¹ with hz2
    have p2 : 0 < z2.re := by
      rw [hz2, Complex.add_re]; exact add_pos (sc _ (by positivity)) (re_inv_pos p3)
    set z1 : ℂ := ((a4 / a3 : ℝ) : ℂ) * l + z2⁻¹ with hz1
    have p1 : 0 < z1.re := by
      rw [hz1, Complex.add_re]; exact add_pos (sc _ (by positivity)) (re_inv_pos p2)
    have n4 := ne_zero_of_re_pos p4
    have n3 := ne_zero_of_re_pos p3
    have n2 := ne_zero_of_re_pos p2
    have c3 : (a3 : ℂ) ≠ 0 := by exact_mod_cast h3.ne'
    have c0 : (a0 : ℂ) ≠ 0 := by exact_mod_cast h0.ne'
    have cb : (b : ℂ) ≠ 0 := by exact_mod_cast hbp.ne'
    have cc : (c : ℂ) ≠ 0 := by exact_mod_cast hcp.ne'
    have ebr : b * a3 = a2 * a3 - a4 * a1 := by rw [hb]; field_simp
    have ecr : c * b = a1 * b - a3 * a0 := by rw [hc']; field_simp
    have eb : (b : ℂ) * a3 = a2 * a3 - a4 * a1 := by exact_mod_cast ebr
    have ec : (c : ℂ) * b = a1 * b - a3 * a0 := by exact_mod_cast ecr
    have e4 : z4 * a0 = c * l := by rw [hz4]; push_cast; field_simp
    have e3 : z3 * (z4 * a0) = b * l ^ 2 + a0 := by
      have : z3 * z4 = ((b / c : ℝ) : ℂ) * l * z4 + 1 := by rw [hz3]; field_simp
      rw [← mul_assoc, this, add_mul, mul_assoc, e4]; push_cast; field_simp
    have e2 : z2 * (z3 * (z4 * a0)) = a3 * l ^ 3 + a1 * l := by
      have : z2 * z3 = ((a3 / b : ℝ) : ℂ) * l * z3 + 1 := by rw [hz2]; field_simp
      rw [← mul_assoc, this, add_mul, mul_assoc, e3, one_mul, e4]; push_cast
      field_simp
      linear_combination ec
    have e1 : z1 * (z2 * (z3 * (z4 * a0))) = a4 * l ^ 4 + a2 * l ^ 2 + a0 := by
      have : z1 * z2 = ((a4 / a3 : ℝ) : ℂ) * l * z2 + 1 := by rw [hz1]; field_simp
      rw [← mul_assoc, this, add_mul, mul_assoc, e2, one_mul, e3]; push_cast
      field_simp
      linear_combination l ^ 2 * eb
    have hprod : (z1 + 1) * (z2 * (z3 * (z4 * a0))) = 0 := by
      rw [add_mul, one_mul, e1, e2]; linear_combination hl
    have hO : z2 * (z3 * (z4 * a0)) ≠ 0 := mul_ne_zero n2 (mul_ne_zero n3 (mul_ne_zero n4 c0))
    have : z1 + 1 = 0 := (mul_eq_zero.1 hprod).resolve_right hO
    have := congrArg Complex.re this
    simp at this
    linarith

theorem im_zero_of_sub {a b c : ℂ} (h : a = b + c) (ha : a.im = 0) (hb : b.im = 0) : c.im = 0 := by
  have := congrArg Complex.im h
  simp [ha, hb] at this
  exact this.symm

/-- Two numbers of negative real part with real sum and real product have a positive product. -/
theorem mul_re_pos_of_real {c d : ℂ} (hc : c.re < 0) (hd : d.re < 0) (hs : (c + d).im = 0)
    (hp : (c * d).im = 0) : 0 < (c * d).re := by
  obtain ⟨x, y⟩ := c
  obtain ⟨u, v⟩ := d
  simp at *
  have hv : v = -y := by linarith
  subst hv
  have h2 : y * (u - x) = 0 := by linarith
  rcases mul_eq_zero.1 h2 with h | h
  · subst h; nlinarith
  · have : u = x := by linarith
    subst this; nlinarith [sq_nonneg y, mul_pos_of_neg_of_neg hc hc]

/-- One pair of roots is conjugate. -/
theorem routh_conj {a b c d : ℂ} (hab : b = conj a) (ha : a.re < 0) (hc : c.re < 0) (hd : d.re < 0)
    (r1 : (a + b + c + d).im = 0)
    (r2 : (a * b + a * c + a * d + b * c + b * d + c * d).im = 0) :
    (a + b + c + d).re < 0 ∧ 0 < (a * b + a * c + a * d + b * c + b * d + c * d).re ∧
    (a * b * c + a * b * d + a * c * d + b * c * d).re < 0 ∧ 0 < (a * b * c * d).re ∧
    0 < ((a + b) * (a + c) * (a + d) * (b + c) * (b + d) * (c + d)).re := by
  have hn : a * b = ((Complex.normSq a : ℝ) : ℂ) := by rw [hab, Complex.mul_conj]
  have hN : 0 < Complex.normSq a := Complex.normSq_pos.2 fun h => by simp [h] at ha
  have hs : a + b = ((2 * a.re : ℝ) : ℂ) := by rw [hab, Complex.add_conj]
  have hcd : (c + d).im = 0 := by
    refine im_zero_of_sub (a := a + b + c + d) (b := a + b) (by ring) r1 (by rw [hs]; simp)
  obtain ⟨S, hS⟩ : ∃ S : ℝ, c + d = (S : ℂ) := ⟨(c + d).re, by apply Complex.ext <;> simp; simpa using hcd⟩
  have hSn : S < 0 := by
    have := congrArg Complex.re hS
    simp at this; linarith
  have hpd : (c * d).im = 0 := by
    refine im_zero_of_sub (a := a * b + a * c + a * d + b * c + b * d + c * d)
      (b := a * b + (a + b) * (c + d)) (by ring) r2 ?_
    rw [hn, hs, hS]; simp
  have hpp := mul_re_pos_of_real hc hd hcd hpd
  obtain ⟨P, hP⟩ : ∃ P : ℝ, c * d = (P : ℂ) := ⟨(c * d).re, by
    apply Complex.ext
    · simp
    · rw [hpd]; simp⟩
  have hPp : 0 < P := by rw [hP] at hpp; simpa using hpp
  have g1 : a + b + c + d = ((2 * a.re + S : ℝ) : ℂ) := by
    push_cast; push_cast at hs; linear_combination hs + hS
  have g2 : a * b + a * c + a * d + b * c + b * d + c * d =
      ((Complex.normSq a + 2 * a.re * S + P : ℝ) : ℂ) := by
    push_cast; push_cast at hs
    linear_combination hn + hP + (c + d) * hs + (2 * (a.re : ℂ)) * hS
  have g3 : a * b * c + a * b * d + a * c * d + b * c * d =
      ((Complex.normSq a * S + P * (2 * a.re) : ℝ) : ℂ) := by
    push_cast; push_cast at hs
    linear_combination (c + d) * hn + (Complex.normSq a : ℂ) * hS + (c * d) * hs + (2 * (a.re : ℂ)) * hP
  have g4 : a * b * c * d = ((Complex.normSq a * P : ℝ) : ℂ) := by
    push_cast
    linear_combination (c * d) * hn + (Complex.normSq a : ℂ) * hP
  have hX : (b + c) * (b + d) = conj ((a + c) * (a + d)) := by
    have e1 : (a + c) * (a + d) = a ^ 2 + a * S + P := by linear_combination a * hS + hP
    have e2 : (b + c) * (b + d) = b ^ 2 + b * S + P := by linear_combination b * hS + hP
    rw [e1, e2, hab]
    simp
  have g5 : (a + b) * (a + c) * (a + d) * (b + c) * (b + d) * (c + d) =
      ((2 * a.re * S * Complex.normSq ((a + c) * (a + d)) : ℝ) : ℂ) := by
    have : (a + c) * (a + d) * ((b + c) * (b + d)) = (Complex.normSq ((a + c) * (a + d)) : ℂ) := by
      rw [hX, Complex.mul_conj]
    calc _ = (a + b) * (c + d) * ((a + c) * (a + d) * ((b + c) * (b + d))) := by ring
      _ = _ := by rw [this, hs, hS]; push_cast; ring
  have hXp : 0 < Complex.normSq ((a + c) * (a + d)) := by
    refine Complex.normSq_pos.2 (mul_ne_zero ?_ ?_) <;> intro h <;>
      have := congrArg Complex.re h <;> simp at this <;> linarith
  rw [g1, g2, g3, g4, g5]
  simp only [Complex.ofReal_re]
  have hA : 0 < 2 * a.re * S := by nlinarith
  refine ⟨by linarith, by linarith, ?_, mul_pos hN hPp, mul_pos hA hXp⟩
  nlinarith [mul_pos hN (neg_pos.2 hSn), mul_pos hPp (neg_pos.2 ha)]

/-- All roots are real. -/
theorem routh_real {a b c d : ℝ} (ha : a < 0) (hb : b < 0) (hc : c < 0) (hd : d < 0) :
    a + b + c + d < 0 ∧ 0 < a * b + a * c + a * d + b * c + b * d + c * d ∧
    a * b * c + a * b * d + a * c * d + b * c * d < 0 ∧ 0 < a * b * c * d ∧
    0 < (a + b) * (a + c) * (a + d) * (b + c) * (b + d) * (c + d) := by
  have m2 : ∀ {x y : ℝ}, x < 0 → y < 0 → 0 < x * y := fun hx hy => mul_pos_of_neg_of_neg hx hy
  have m3 : ∀ {x y z : ℝ}, x < 0 → y < 0 → z < 0 → x * y * z < 0 := fun hx hy hz =>
    mul_neg_of_pos_of_neg (m2 hx hy) hz
  refine ⟨by linarith, by linarith [m2 ha hb, m2 ha hc, m2 ha hd, m2 hb hc, m2 hb hd, m2 hc hd],
    by linarith [m3 ha hb hc, m3 ha hb hd, m3 ha hc hd, m3 hb hc hd],
    mul_pos_of_neg_of_neg (m3 ha hb hc) hd, ?_⟩
  have s : ∀ {x y : ℝ}, x < 0 → y < 0 → x + y < 0 := fun hx hy => by linarith
  exact mul_pos_of_neg_of_neg (mul_neg_of_pos_of_neg (mul_pos_of_neg_of_neg
    (mul_neg_of_pos_of_neg (m2 (s ha hb) (s ha hc)) (s ha hd)) (s hb hc)) (s hb hd)) (s hc hd)

/-- Necessity: if the four roots have negative real parts, then the coefficients and the Hurwitz
determinant are positive. -/
theorem routh_necessary (a4 a3 a2 a1 a0 : ℝ) (h4 : 0 < a4) (r : Fin 4 → ℂ)
    (hr : ∀ l : ℂ, (a4 : ℂ) * l ^ 4 + a3 * l ^ 3 + a2 * l ^ 2 + a1 * l + a0 = a4 * ∏ j, (l - r j))
    (hneg : ∀ j, (r j).re < 0) :
    0 < a3 ∧ 0 < a2 ∧ 0 < a1 ∧ 0 < a0 ∧ 0 < a3 * a2 * a1 - a4 * a1 ^ 2 - a3 ^ 2 * a0 := by
  obtain ⟨a, ea⟩ : ∃ a, r 0 = a := ⟨_, rfl⟩
  obtain ⟨b, eb⟩ : ∃ b, r 1 = b := ⟨_, rfl⟩
  obtain ⟨c, ec⟩ : ∃ c, r 2 = c := ⟨_, rfl⟩
  obtain ⟨d, ed⟩ : ∃ d, r 3 = d := ⟨_, rfl⟩
  have na : a.re < 0 := ea ▸ hneg 0
  have nb : b.re < 0 := eb ▸ hneg 1
  have nc : c.re < 0 := ec ▸ hneg 2
  have nd : d.re < 0 := ed ▸ hneg 3
  simp only [Fin.prod_univ_four, ea, eb, ec, ed] at hr
  have c4 : (a4 : ℂ) ≠ 0 := by exact_mod_cast h4.ne'
  -- Vieta
  have q0 : (a0 : ℂ) = a4 * (a * b * c * d) := by
    have := hr 0
    simp at this
    linear_combination this
  have qp := hr 1
  have qm := hr (-1)
  have q2 := hr 2
  rw [q0] at qp qm q2
  have v2 : (a2 : ℂ) = a4 * (a * b + a * c + a * d + b * c + b * d + c * d) := by
    linear_combination (1 / 2) * qp + (1 / 2) * qm
  rw [v2] at qp qm q2
  have v3 : (a3 : ℂ) = -(a4 * (a + b + c + d)) := by
    linear_combination (1 / 6) * q2 - (1 / 3) * qp
  have v1 : (a1 : ℂ) = -(a4 * (a * b * c + a * b * d + a * c * d + b * c * d)) := by
    rw [v3] at qp
    linear_combination qp
  have i1 : (a + b + c + d).im = 0 := by
    have := congrArg Complex.im v3
    simp [h4.ne'] at this ⊢
    linarith
  have i2 : (a * b + a * c + a * d + b * c + b * d + c * d).im = 0 := by
    have := congrArg Complex.im v2
    rw [Complex.im_ofReal_mul] at this
    simp only [Complex.ofReal_im] at this
    exact (mul_eq_zero.1 this.symm).resolve_left h4.ne'
  have key : (a + b + c + d).re < 0 ∧ 0 < (a * b + a * c + a * d + b * c + b * d + c * d).re ∧
      (a * b * c + a * b * d + a * c * d + b * c * d).re < 0 ∧ 0 < (a * b * c * d).re ∧
      0 < ((a + b) * (a + c) * (a + d) * (b + c) * (b + d) * (c + d)).re := by
    -- conjugates of roots are roots
    have hroot : ∀ x : ℂ, (x = a ∨ x = b ∨ x = c ∨ x = d) →
        conj x = a ∨ conj x = b ∨ conj x = c ∨ conj x = d := by
      intro x hx
      have h1 : (a4 : ℂ) * x ^ 4 + a3 * x ^ 3 + a2 * x ^ 2 + a1 * x + a0 = 0 := by
        rw [hr]; rcases hx with rfl | rfl | rfl | rfl <;> simp
      have h2 := congrArg conj h1
      simp only [map_add, map_mul, map_pow, Complex.conj_ofReal, map_zero] at h2
      rw [hr] at h2
      simp only [mul_eq_zero, c4, sub_eq_zero, false_or] at h2
      tauto
    have perm : ∀ {a b c d : ℂ}, a.re < 0 → b.re < 0 → c.re < 0 → d.re < 0 →
        (a + b + c + d).im = 0 → (a * b + a * c + a * d + b * c + b * d + c * d).im = 0 →
        a.im ≠ 0 → (conj a = a ∨ conj a = b ∨ conj a = c ∨ conj a = d) →
        (a + b + c + d).re < 0 ∧ 0 < (a * b + a * c + a * d + b * c + b * d + c * d).re ∧
        (a * b * c + a * b * d + a * c * d + b * c * d).re < 0 ∧ 0 < (a * b * c * d).re ∧
        0 < ((a + b) * (a + c) * (a + d) * (b + c) * (b + d) * (c + d)).re := by
      intro a b c d na nb nc nd i1 i2 hi hcj
      rcases hcj with h | h | h | h
      · exact absurd (Complex.conj_eq_iff_im.1 h) hi
      · exact routh_conj h.symm na nc nd i1 i2
      · have := routh_conj (a := a) (b := c) (c := b) (d := d) h.symm na nb nd
          (by rw [← i1]; congr 1; ring) (by rw [← i2]; congr 1; ring)
        obtain ⟨k1, k2, k3, k4, k5⟩ := this
        exact ⟨by convert k1 using 2; ring, by convert k2 using 2; ring, by convert k3 using 2; ring,
          by convert k4 using 2; ring, by convert k5 using 2; ring⟩
      · have := routh_conj (a := a) (b := d) (c := b) (d := c) h.symm na nb nc
          (by rw [← i1]; congr 1; ring) (by rw [← i2]; congr 1; ring)
        obtain ⟨k1, k2, k3, k4, k5⟩ := this
        exact ⟨by convert k1 using 2; ring, by convert k2 using 2; ring, by convert k3 using 2; ring,
          by convert k4 using 2; ring, by convert k5 using 2; ring⟩
    by_cases ia : a.im = 0
    · by_cases ib : b.im = 0
      · by_cases ic : c.im = 0
        · have id' : d.im = 0 := by
            have := i1; simp [ia, ib, ic] at this; exact this
          have lift : ∀ z : ℂ, z.im = 0 → ∃ x : ℝ, z = x := fun z hz => ⟨z.re, by
            apply Complex.ext <;> simp [hz]⟩
          obtain ⟨a, rfl⟩ := lift a ia
          obtain ⟨b, rfl⟩ := lift b ib
          obtain ⟨c, rfl⟩ := lift c ic
          obtain ⟨d, rfl⟩ := lift d id'
          simp only [Complex.ofReal_re] at na nb nc nd
          have := routh_real na nb nc nd
          simpa only [← Complex.ofReal_add, ← Complex.ofReal_mul, Complex.ofReal_re] using this
        · have := perm (a := c) (b := b) (c := a) (d := d) nc nb na nd
            (by rw [← i1]; congr 1; ring) (by rw [← i2]; congr 1; ring) ic
            (by have := hroot c (by tauto); tauto)
          obtain ⟨k1, k2, k3, k4, k5⟩ := this
          exact ⟨by convert k1 using 2; ring, by convert k2 using 2; ring, by convert k3 using 2; ring,
            by convert k4 using 2; ring, by convert k5 using 2; ring⟩
      · have := perm (a := b) (b := a) (c := c) (d := d) nb na nc nd
          (by rw [← i1]; congr 1; ring) (by rw [← i2]; congr 1; ring) ib
          (by have := hroot b (by tauto); tauto)
        obtain ⟨k1, k2, k3, k4, k5⟩ := this
        exact ⟨by convert k1 using 2; ring, by convert k2 using 2; ring, by convert k3 using 2; ring,
          by convert k4 using 2; ring, by convert k5 using 2; ring⟩
    · exact perm na nb nc nd i1 i2 ia (hroot a (by tauto))
  obtain ⟨k1, k2, k3, k4, k5⟩ := key
  have t3 := congrArg Complex.re v3
  have t2 := congrArg Complex.re v2
  have t1 := congrArg Complex.re v1
  have t0 := congrArg Complex.re q0
  rw [Complex.neg_re, Complex.re_ofReal_mul] at t3 t1
  rw [Complex.re_ofReal_mul] at t2 t0
  simp only [Complex.ofReal_re] at t3 t2 t1 t0
  refine ⟨by rw [t3]; nlinarith, by rw [t2]; positivity, by rw [t1]; nlinarith, by rw [t0]; positivity, ?_⟩
  have hD : ((a3 * a2 * a1 - a4 * a1 ^ 2 - a3 ^ 2 * a0 : ℝ) : ℂ) =
      ((a4 ^ 3 : ℝ) : ℂ) * ((a + b) * (a + c) * (a + d) * (b + c) * (b + d) * (c + d)) := by
    push_cast
    rw [v3, v2, v1, q0]; ring
  have := congrArg Complex.re hD
  rw [Complex.re_ofReal_mul, Complex.ofReal_re] at this
  rw [this]; positivity

end BP
