import Mathlib.Analysis.SpecialFunctions.Trigonometric.Deriv
import Mathlib.Analysis.SpecialFunctions.ExpDeriv
import Mathlib.Analysis.SpecialFunctions.Sqrt
import Mathlib.Algebra.Order.BigOperators.Ring.Finset
import Mathlib.Tactic
import Verif.Model.Period

set_option linter.unusedSimpArgs false
set_option linter.unusedVariables false

/-!
# Properties of the period calculations (C50 - C56, C79)
-/

namespace BP

open Real

/-! ## C50 -/

/-- **C50.** Each entry of the Jacobian row at time `t` is the partial derivative of the
fitted function with respect to the matching parameter, at every parameter vector with
damping ratio below one. -/
theorem C50_jacobian (p0 p1 p2 p3 p4 t : ℝ) (hz : |p3| < 1) :
    HasDerivAt (fun x => fitfunc x p1 p2 p3 p4 t) (jacFitfunc p1 p2 p3 p4 t 0) p0 ∧
    HasDerivAt (fun x => fitfunc p0 x p2 p3 p4 t) (jacFitfunc p1 p2 p3 p4 t 1) p1 ∧
    HasDerivAt (fun x => fitfunc p0 p1 x p3 p4 t) (jacFitfunc p1 p2 p3 p4 t 2) p2 ∧
    HasDerivAt (fun x => fitfunc p0 p1 p2 x p4 t) (jacFitfunc p1 p2 p3 p4 t 3) p3 ∧
    HasDerivAt (fun x => fitfunc p0 p1 p2 p3 x t) (jacFitfunc p1 p2 p3 p4 t 4) p4 := by
  have hpos : 0 < 1 - p3 ^ 2 := by
    have := (sq_lt_one_iff_abs_lt_one p3).2 hz; linarith
  have hs : √(1 - p3 ^ 2) ≠ 0 := (Real.sqrt_pos.2 hpos).ne'
  unfold fitfunc jacFitfunc
  refine ⟨?_, ?_, ?_, ?_, ?_⟩
  · simp only [Matrix.cons_val_zero]
    exact (hasDerivAt_id p0).add_const (exp (-p3 * p4 * t) *
      (p1 * sin (p4 * √(1 - p3 ^ 2) * t) + p2 * cos (p4 * √(1 - p3 ^ 2) * t)))
  · have h := (((hasDerivAt_id p1).mul_const (sin (p4 * √(1 - p3 ^ 2) * t))).add_const
      (p2 * cos (p4 * √(1 - p3 ^ 2) * t))).const_mul (exp (-p3 * p4 * t))
    have h := h.const_add p0
    refine h.congr_deriv ?_
    simp only [Matrix.cons_val]
    ring_nf
  · have h := (((hasDerivAt_id p2).mul_const (cos (p4 * √(1 - p3 ^ 2) * t))).const_add
      (p1 * sin (p4 * √(1 - p3 ^ 2) * t))).const_mul (exp (-p3 * p4 * t))
    have h := h.const_add p0
    refine h.congr_deriv ?_
    simp only [Matrix.cons_val]
    ring_nf
  · have hr : HasDerivAt (fun x : ℝ => √(1 - x ^ 2)) (-(2 * p3) / (2 * √(1 - p3 ^ 2))) p3 := by
      have : HasDerivAt (fun x : ℝ => 1 - x ^ 2) (-(2 * p3)) p3 := by
        simpa using ((hasDerivAt_id p3).pow 2).const_sub 1
      exact this.sqrt hpos.ne'
    have harg : HasDerivAt (fun x : ℝ => p4 * √(1 - x ^ 2) * t)
        (p4 * (-(2 * p3) / (2 * √(1 - p3 ^ 2))) * t) p3 := (hr.const_mul p4).mul_const t
    have he : HasDerivAt (fun x : ℝ => exp (-x * p4 * t)) (exp (-p3 * p4 * t) * (-1 * p4 * t)) p3 := by
      have : HasDerivAt (fun x : ℝ => -x * p4 * t) (-1 * p4 * t) p3 :=
        (((hasDerivAt_id p3).neg).mul_const p4).mul_const t
      exact this.exp
    have h := (he.mul ((harg.sin.const_mul p1).add (harg.cos.const_mul p2))).const_add p0
    refine h.congr_deriv ?_
    simp only [Matrix.cons_val, Pi.add_apply]
    rw [mul_comm (√(1 - p3 ^ 2)) p4]
    field_simp
  · have harg : HasDerivAt (fun x : ℝ => x * √(1 - p3 ^ 2) * t) (1 * √(1 - p3 ^ 2) * t) p4 :=
      ((hasDerivAt_id p4).mul_const _).mul_const t
    have he : HasDerivAt (fun x : ℝ => exp (-p3 * x * t)) (exp (-p3 * p4 * t) * (-p3 * 1 * t)) p4 := by
      have : HasDerivAt (fun x : ℝ => -p3 * x * t) (-p3 * 1 * t) p4 :=
        ((hasDerivAt_id p4).const_mul (-p3)).mul_const t
      exact this.exp
    have h := (he.mul ((harg.sin.const_mul p1).add (harg.cos.const_mul p2))).const_add p0
    refine h.congr_deriv ?_
    simp only [Matrix.cons_val, Pi.add_apply]
    rw [mul_comm (√(1 - p3 ^ 2)) p4]
    ring

example : |(0.001 : ℝ)| < 1 := by norm_num [abs_of_pos]

/-! ## C51 -/

/-- **C51.** With the returned period `T`, one period later the oscillation about the
offset is the same up to the decay factor, at every time; `T` is positive. -/
theorem C51_period (p0 p1 p2 zeta wo : ℝ) (hz : |zeta| < 1) (hw : 0 < wo) :
    0 < fitPeriod zeta wo ∧
    ∀ t, fitfunc p0 p1 p2 zeta wo (t + fitPeriod zeta wo) - p0 =
      exp (-zeta * wo * fitPeriod zeta wo) * (fitfunc p0 p1 p2 zeta wo t - p0) := by
  have hpos : 0 < 1 - zeta ^ 2 := by
    have := (sq_lt_one_iff_abs_lt_one zeta).2 hz; linarith
  have hs : 0 < √(1 - zeta ^ 2) := Real.sqrt_pos.2 hpos
  have hT : wo * √(1 - zeta ^ 2) * fitPeriod zeta wo = 2 * π := by
    unfold fitPeriod; simp only []
    have := Real.pi_pos.ne'
    field_simp
  refine ⟨by unfold fitPeriod; have := Real.pi_pos; positivity, fun t => ?_⟩
  have h1 : wo * √(1 - zeta ^ 2) * (t + fitPeriod zeta wo) = wo * √(1 - zeta ^ 2) * t + 2 * π := by
    rw [mul_add, hT]
  have h2 : exp (-zeta * wo * (t + fitPeriod zeta wo)) =
      exp (-zeta * wo * t) * exp (-zeta * wo * fitPeriod zeta wo) := by
    rw [← Real.exp_add]; ring_nf
  unfold fitfunc
  simp only [h1, h2, Real.sin_add_two_pi, Real.cos_add_two_pi]
  ring

/-- **C51.** No smaller positive time has this property, unless the oscillation is
identically zero. -/
theorem C51_period_minimal (p0 p1 p2 zeta wo S : ℝ) (hz : |zeta| < 1) (hw : 0 < wo)
    (hp : p1 ≠ 0 ∨ p2 ≠ 0) (hS : 0 < S)
    (h : ∀ t, fitfunc p0 p1 p2 zeta wo (t + S) - p0 =
      exp (-zeta * wo * S) * (fitfunc p0 p1 p2 zeta wo t - p0)) :
    fitPeriod zeta wo ≤ S := by
  have hpos : 0 < 1 - zeta ^ 2 := by
    have := (sq_lt_one_iff_abs_lt_one zeta).2 hz; linarith
  have hs : 0 < √(1 - zeta ^ 2) := Real.sqrt_pos.2 hpos
  set wd := wo * √(1 - zeta ^ 2) with hwd
  have hwd0 : 0 < wd := by positivity
  have key : ∀ t, p1 * sin (wd * t + wd * S) + p2 * cos (wd * t + wd * S) =
      p1 * sin (wd * t) + p2 * cos (wd * t) := by
    intro t
    have := h t
    unfold fitfunc at this
    simp only [← hwd] at this
    have h2 : exp (-zeta * wo * (t + S)) = exp (-zeta * wo * t) * exp (-zeta * wo * S) := by
      rw [← Real.exp_add]; ring_nf
    rw [h2, mul_add wd] at this
    have hne : exp (-zeta * wo * t) * exp (-zeta * wo * S) ≠ 0 := by positivity
    apply mul_left_cancel₀ hne
    linarith
  have k0 := key 0
  have k1 := key (π / 2 / wd)
  have e1 : wd * (π / 2 / wd) = π / 2 := by field_simp
  rw [e1, add_comm (π / 2), Real.sin_add_pi_div_two, Real.cos_add_pi_div_two] at k1
  simp at k0 k1
  have hcos : cos (wd * S) = 1 := by
    have hsq : (p1 ^ 2 + p2 ^ 2) * (cos (wd * S) - 1) = 0 := by
      linear_combination p2 * k0 + p1 * k1
    have hpp : p1 ^ 2 + p2 ^ 2 ≠ 0 := by
      rcases hp with hp | hp <;> positivity
    rcases mul_eq_zero.1 hsq with h | h
    · exact absurd h hpp
    · linarith
  obtain ⟨n, hn⟩ := (Real.cos_eq_one_iff _).1 hcos
  have hn1 : 1 ≤ n := by
    by_contra hlt
    have : (n : ℝ) ≤ 0 := by exact_mod_cast (by omega : n ≤ 0)
    have hp := Real.pi_pos
    have : (0 : ℝ) < n * (2 * π) := by rw [hn]; positivity
    nlinarith
  have hn1' : (1 : ℝ) ≤ n := by exact_mod_cast hn1
  have hT : fitPeriod zeta wo = 2 * π / wd := by
    unfold fitPeriod; simp only [hwd]
    have := Real.pi_pos.ne'
    field_simp
  rw [hT, div_le_iff₀ hwd0]
  have := Real.pi_pos
  nlinarith

/-! ## C52 -/

/-- **C52.** Exact relation between the reported SSE and the residual sum of squares. -/
theorem C52_sse_identity {n : ℕ} (ym yp : Fin n → ℝ) :
    (fitGoodness ym yp).2.1 = ∑ i, (ym i - yp i) ^ 2 +
      2 * ∑ i, (ym i - yp i) * (yp i - (∑ j, ym j) / n) := by
  unfold fitGoodness
  simp only []
  rw [← Finset.sum_sub_distrib, Finset.mul_sum, ← Finset.sum_add_distrib]
  refine Finset.sum_congr rfl fun i _ => ?_
  ring

/-- **C52.** If the residuals sum to zero and are orthogonal to the fit, SSE is the residual
sum of squares, SST = SSR + SSE, and `0 ≤ R² ≤ 1` with `1 - R² = SSE / SST`. -/
theorem C52_orthogonal_residuals {n : ℕ} (ym yp : Fin n → ℝ)
    (h0 : ∑ i, (ym i - yp i) = 0) (h1 : ∑ i, (ym i - yp i) * yp i = 0) :
    let r := fitGoodness ym yp
    r.2.1 = ∑ i, (ym i - yp i) ^ 2 ∧ r.2.2.1 = r.2.2.2 + r.2.1 ∧ 0 ≤ r.1 ∧ r.1 ≤ 1 ∧
      (r.2.2.1 ≠ 0 → 1 - r.1 = r.2.1 / r.2.2.1) := by
  have hsse : (fitGoodness ym yp).2.1 = ∑ i, (ym i - yp i) ^ 2 := by
    rw [C52_sse_identity]
    have : ∑ i, (ym i - yp i) * (yp i - (∑ j, ym j) / n) = 0 := by
      simp only [mul_sub, Finset.sum_sub_distrib, ← Finset.sum_mul]
      simp only [Finset.sum_sub_distrib] at h0 h1
      have h1' : ∑ i, (ym i - yp i) * yp i = 0 := by
        simp only [sub_mul, Finset.sum_sub_distrib]
        simpa only [sub_mul, Finset.sum_sub_distrib] using h1
      rw [h1', h0]; ring
    rw [this]; ring
  have hsse0 : 0 ≤ (fitGoodness ym yp).2.1 := by
    rw [hsse]; exact Finset.sum_nonneg fun i _ => sq_nonneg _
  have hsum : (fitGoodness ym yp).2.2.1 = (fitGoodness ym yp).2.2.2 + (fitGoodness ym yp).2.1 := by
    simp [fitGoodness]
  have hssr : 0 ≤ (fitGoodness ym yp).2.2.2 := by
    simp only [fitGoodness]; exact Finset.sum_nonneg fun i _ => sq_nonneg _
  have hrsq : (fitGoodness ym yp).1 = (fitGoodness ym yp).2.2.2 / (fitGoodness ym yp).2.2.1 := rfl
  have hsst : 0 ≤ (fitGoodness ym yp).2.2.1 := by linarith
  refine ⟨hsse, hsum, ?_, ?_, ?_⟩
  · rw [hrsq]; exact div_nonneg hssr hsst
  · rw [hrsq]; exact div_le_one_of_le₀ (by linarith) hsst
  · intro hne
    rw [hrsq]
    have : (fitGoodness ym yp).2.2.2 = (fitGoodness ym yp).2.2.1 - (fitGoodness ym yp).2.1 := by
      linarith
    rw [this]
    field_simp
    ring

/-- **C52.** At a least-squares fit of the decaying oscillation (the residuals are
orthogonal to the Jacobian columns of the offset and of the two amplitudes) the reported
SSE is the residual sum of squares and `0 ≤ R² ≤ 1`. -/
theorem C52_at_least_squares_fit {n : ℕ} (y t : Fin n → ℝ) (p0 p1 p2 p3 p4 : ℝ)
    (hc : ∀ k : Fin 5, k.val < 3 →
      ∑ i, jacFitfunc p1 p2 p3 p4 (t i) k * (fitfunc p0 p1 p2 p3 p4 (t i) - y i) = 0) :
    let yp := fun i => fitfunc p0 p1 p2 p3 p4 (t i)
    (fitGoodness y yp).2.1 = ∑ i, (y i - yp i) ^ 2 ∧
      0 ≤ (fitGoodness y yp).1 ∧ (fitGoodness y yp).1 ≤ 1 := by
  intro yp
  have c0 := hc 0 (by decide)
  have c1 := hc 1 (by decide)
  have c2 := hc 2 (by decide)
  simp only [jacFitfunc, Matrix.cons_val] at c0 c1 c2
  have hfit : ∀ s, fitfunc p0 p1 p2 p3 p4 s = p0 * 1 +
      p1 * (exp (-p3 * p4 * s) * sin (√(1 - p3 ^ 2) * p4 * s)) +
      p2 * (exp (-p3 * p4 * s) * cos (√(1 - p3 ^ 2) * p4 * s)) := by
    intro s; unfold fitfunc; simp only []
    rw [mul_comm p4 (√(1 - p3 ^ 2))]; ring
  have h0 : ∑ i, (y i - yp i) = 0 := by
    have : ∑ i, (y i - yp i) = -∑ i, 1 * (fitfunc p0 p1 p2 p3 p4 (t i) - y i) := by
      rw [← Finset.sum_neg_distrib]; exact Finset.sum_congr rfl fun i _ => by simp [yp]
    rw [this, c0, neg_zero]
  have h1 : ∑ i, (y i - yp i) * yp i = 0 := by
    have : ∑ i, (y i - yp i) * yp i =
        -(p0 * ∑ i, 1 * (fitfunc p0 p1 p2 p3 p4 (t i) - y i) +
          p1 * ∑ i, exp (-p3 * p4 * t i) * sin (√(1 - p3 ^ 2) * p4 * t i) *
            (fitfunc p0 p1 p2 p3 p4 (t i) - y i) +
          p2 * ∑ i, exp (-p3 * p4 * t i) * cos (√(1 - p3 ^ 2) * p4 * t i) *
            (fitfunc p0 p1 p2 p3 p4 (t i) - y i)) := by
      rw [Finset.mul_sum, Finset.mul_sum, Finset.mul_sum, ← Finset.sum_add_distrib,
        ← Finset.sum_add_distrib, ← Finset.sum_neg_distrib]
      refine Finset.sum_congr rfl fun i _ => ?_
      have := hfit (t i)
      simp only [yp]
      generalize fitfunc p0 p1 p2 p3 p4 (t i) = F at *
      conv_lhs => rw [mul_comm]
      conv_lhs => arg 1; rw [this]
      ring
    rw [this, c0, c1, c2]; simp
  obtain ⟨a, _, b, c, _⟩ := C52_orthogonal_residuals y yp h0 h1
  exact ⟨a, b, c⟩

/-- **C52.** For an arbitrary prediction the reported SSE can be negative, although no sum
of squared errors is. -/
theorem C52_sse_can_be_negative :
    ∃ ym yp : Fin 2 → ℝ, (fitGoodness ym yp).2.1 < 0 ∧ 1 < (fitGoodness ym yp).1 := by
  refine ⟨![0, 1], ![-1, 2], ?_, ?_⟩ <;> norm_num [fitGoodness, Fin.sum_univ_two]

/-- The hypotheses of `C52_at_least_squares_fit` are met by an exact fit, and by a constant
offset fit of `0, 1` at the same time. -/
example : ∀ k : Fin 5, k.val < 3 → ∑ i : Fin 2, jacFitfunc 0 0 0 0 ((fun _ => 0 : Fin 2 → ℝ) i) k *
    (fitfunc (1 / 2) 0 0 0 0 ((fun _ => 0 : Fin 2 → ℝ) i) - (![0, 1] : Fin 2 → ℝ) i) = 0 := by
  intro k hk
  fin_cases k <;> simp [jacFitfunc, fitfunc, Fin.sum_univ_two]

/-! ## C53 -/

/-- **C53.** The periods are recalculated exactly when there are fewer than 4 compound or 8
torsional periods (5 and 11 if the fork is split). -/
theorem C53_check_for_period {V : Type} (mp : Dict V) (split : Bool) :
    checkForPeriod mp split = false ↔
      (if split then 5 else 4) ≤ (mp.keys.filter fun k => decide (['T', 'c'] <+: k.toList)).length ∧
      (if split then 11 else 8) ≤ (mp.keys.filter fun k => decide (['T', 't'] <+: k.toList)).length := by
  have hpre : ∀ (a b : Char) (l : List Char), l.take 2 = [a, b] ↔ [a, b] <+: l := by
    intro a b l
    rw [List.prefix_iff_eq_take]
    simp [eq_comm]
  have hcount : ∀ a b : Char, (mp.keys.countP fun k => decide (k.toList.take 2 = [a, b])) =
      (mp.keys.filter fun k => decide ([a, b] <+: k.toList)).length := by
    intro a b
    rw [List.countP_eq_length_filter]
    congr 2
    funext k
    simp [hpre]
  unfold checkForPeriod
  simp only [hcount]
  cases split <;> simp

/-! ## C54 -/

/-- Specification: the documented subscripts of the parts. -/
def Spec.partLetter (split : Bool) (part : String) : Option Char :=
  if part = "Fwheel" then some 'F'
  else if part = "Rwheel" then some 'R'
  else if part = "Frame" then some 'B'
  else if part = "Flywheel" then some 'D'
  else if part = "Fork" then some (if split then 'S' else 'H')
  else if part = "Handlebar" then (if split then some 'G' else none)
  else if part = "Rod" then some 'P'
  else none

/-- Specification: ordinal words. -/
def Spec.ordinalDigit (word : String) : Option Char :=
  if word = "First" then some '1'
  else if word = "Second" then some '2'
  else if word = "Third" then some '3'
  else if word = "Fourth" then some '4'
  else if word = "Fifth" then some '5'
  else if word = "Sixth" then some '6'
  else none

theorem partSubscripts_find (split : Bool) (part : String) :
    Dict.find? (partSubscripts split none) part =
      (Spec.partLetter split part).map fun c => String.ofList [c] := by
  unfold Spec.partLetter
  simp only [eq_comm (a := part)]
  cases split <;> simp only [partSubscripts, Dict.set, Dict.find?_cons, Dict.find?_nil,
    String.reduceEq, if_false, if_true, Option.getD_none, Bool.false_eq_true] <;>
    split_ifs <;> first | rfl | (subst_vars; simp_all)

theorem ordinals_find (w : String) :
    Dict.find? ordinals w = (Spec.ordinalDigit w).map fun c => String.ofList [c] := by
  unfold Spec.ordinalDigit
  simp only [eq_comm (a := w)]
  simp only [ordinals, Dict.find?_cons, Dict.find?_nil]
  split_ifs <;> rfl

/-- **C54.** For pendulum data without a 'rod' entry the key exists iff part, pendulum and
orientation are given and documented, and then it is 'T', the lower-case first letter of
the pendulum, the letter of the part and the digit of the ordinal. -/
theorem C54_period_key (md : Dict String) (split : Bool) (key : String)
    (hrod : Dict.find? md "rod" = none) :
    getPeriodKey md split = .ok key ↔
      ∃ part pend order ch rest letter digit,
        Dict.find? md "part" = some part ∧ Dict.find? md "pendulum" = some pend ∧
        (Dict.find? md "angleOrder" = some order ∨
          Dict.find? md "angleOrder" = none ∧ Dict.find? md "angle" = some order) ∧
        pend.toList = ch :: rest ∧ Spec.partLetter split part = some letter ∧
        Spec.ordinalDigit order = some digit ∧ key.toList = ['T', ch.toLower, letter, digit] := by
  unfold getPeriodKey
  simp only [hrod]
  have hpart : ∀ part, Dict.get (partSubscripts split none) part =
      match Spec.partLetter split part with
      | some c => .ok (String.ofList [c])
      | none => .error (.keyError part) := by
    intro part; unfold Dict.get; rw [partSubscripts_find]; cases Spec.partLetter split part <;> rfl
  have hord : ∀ w, Dict.get ordinals w =
      match Spec.ordinalDigit w with
      | some c => .ok (String.ofList [c])
      | none => .error (.keyError w) := by
    intro w; unfold Dict.get; rw [ordinals_find]; cases Spec.ordinalDigit w <;> rfl
  have hfin : ∀ (order : String),
      periodKeyFor md (partSubscripts split none) order = .ok key ↔
      ∃ part pend ch rest letter digit,
        Dict.find? md "part" = some part ∧ Dict.find? md "pendulum" = some pend ∧
        pend.toList = ch :: rest ∧ Spec.partLetter split part = some letter ∧
        Spec.ordinalDigit order = some digit ∧ key.toList = ['T', ch.toLower, letter, digit] := by
    intro order
    unfold periodKeyFor
    unfold Dict.get at *
    cases h1 : Dict.find? md "pendulum" with
    | none => simp
    | some pend =>
      simp only []
      cases h2 : pend.toList with
      | nil => simp [h2]
      | cons ch rest =>
        simp only []
        cases h3 : Dict.find? md "part" with
        | none => simp
        | some part =>
          simp only []
          have e1 := hpart part
          have e2 := hord order
          cases h4 : Spec.partLetter split part with
          | none => simp [e1, h4]
          | some letter =>
            cases h5 : Spec.ordinalDigit order with
            | none => simp [e1, h4, e2, h5]
            | some digit =>
              simp only [e1, h4, e2, h5]
              constructor
              · intro h
                cases h
                exact ⟨part, pend, ch, rest, letter, digit, rfl, rfl, h2, h4, rfl, by simp⟩
              · rintro ⟨part', pend', ch', rest', letter', digit', q1, q2, q3, q4, q5, q6⟩
                cases q1; cases q2
                rw [h2] at q3; cases q3
                rw [h4] at q4; cases q4
                cases q5
                congr 1
                apply String.ext
                rw [q6]; simp
  cases ha : Dict.find? md "angleOrder" with
  | some order =>
    simp only []
    rw [hfin]
    constructor
    · rintro ⟨part, pend, ch, rest, letter, digit, h⟩
      exact ⟨part, pend, order, ch, rest, letter, digit, h.1, h.2.1, .inl rfl, h.2.2⟩
    · rintro ⟨part, pend, order', ch, rest, letter, digit, h1, h2, h3, h4⟩
      rcases h3 with h3 | h3
      · cases h3; exact ⟨part, pend, ch, rest, letter, digit, h1, h2, h4⟩
      · simp at h3
  | none =>
    simp only []
    cases hb : Dict.find? md "angle" with
    | none => simp
    | some order =>
      simp only []
      rw [hfin]
      constructor
      · rintro ⟨part, pend, ch, rest, letter, digit, h⟩
        exact ⟨part, pend, order, ch, rest, letter, digit, h.1, h.2.1, .inr ⟨trivial, rfl⟩, h.2.2⟩
      · rintro ⟨part, pend, order', ch, rest, letter, digit, h1, h2, h3, h4⟩
        rcases h3 with h3 | h3
        · simp at h3
        · cases h3.2; exact ⟨part, pend, ch, rest, letter, digit, h1, h2, h4⟩

theorem partLetter_inj (split : Bool) (a b : String) (c : Char)
    (ha : Spec.partLetter split a = some c) (hb : Spec.partLetter split b = some c) : a = b := by
  unfold Spec.partLetter at ha hb
  cases split <;> simp only [Bool.false_eq_true, if_false, if_true] at ha hb <;>
    split_ifs at ha <;> cases ha <;> split_ifs at hb <;> simp_all

theorem ordinalDigit_inj (a b : String) (c : Char)
    (ha : Spec.ordinalDigit a = some c) (hb : Spec.ordinalDigit b = some c) : a = b := by
  unfold Spec.ordinalDigit at ha hb
  split_ifs at ha <;> cases ha <;> split_ifs at hb <;> simp_all

/-- **C54.** Two recordings (without 'rod' entries) that get the same key are of the same
part, of pendulums with the same initial, and of the same orientation. -/
theorem C54_key_identifies_experiment (md md' : Dict String) (split : Bool) (key : String)
    (hrod : Dict.find? md "rod" = none) (hrod' : Dict.find? md' "rod" = none)
    (h : getPeriodKey md split = .ok key) (h' : getPeriodKey md' split = .ok key)
    (ho : Dict.has md "angleOrder" = true) (ho' : Dict.has md' "angleOrder" = true) :
    Dict.find? md "part" = Dict.find? md' "part" ∧
    Dict.find? md "angleOrder" = Dict.find? md' "angleOrder" ∧
    ∃ p p' c c' r r', Dict.find? md "pendulum" = some p ∧ Dict.find? md' "pendulum" = some p' ∧
      p.toList = c :: r ∧ p'.toList = c' :: r' ∧ c.toLower = c'.toLower := by
  obtain ⟨part, pend, order, ch, rest, letter, digit, a1, a2, a3, a4, a5, a6, a7⟩ :=
    (C54_period_key md split key hrod).1 h
  obtain ⟨part', pend', order', ch', rest', letter', digit', b1, b2, b3, b4, b5, b6, b7⟩ :=
    (C54_period_key md' split key hrod').1 h'
  rw [a7] at b7
  simp only [List.cons.injEq, and_true, true_and] at b7
  obtain ⟨e1, e2, e3⟩ := b7
  have a3' : Dict.find? md "angleOrder" = some order := by
    rcases a3 with h | h
    · exact h
    · simp [Dict.has, h.1] at ho
  have b3' : Dict.find? md' "angleOrder" = some order' := by
    rcases b3 with h | h
    · exact h
    · simp [Dict.has, h.1] at ho'
  subst e2 e3
  have := partLetter_inj split _ _ _ a5 b5
  have := ordinalDigit_inj _ _ _ a6 b6
  subst_vars
  exact ⟨by rw [a1, b1], by rw [a3', b3'], pend, pend', ch, ch', rest, rest', a2, b2, a4, b4, e1⟩

/-- A 'rod' entry that names another part takes over its letter. -/
theorem C54_rod_entry_shadows :
    getPeriodKey [("rod", "Fork"), ("part", "Fork"), ("pendulum", "Torsional"),
      ("angleOrder", "First")] false = .ok "TtP1" ∧
    getPeriodKey [("part", "Fork"), ("pendulum", "Torsional"), ("angleOrder", "First")] false =
      .ok "TtH1" ∧
    getPeriodKey [("rod", "Calib"), ("part", "Rod"), ("pendulum", "Torsional"),
      ("angleOrder", "First")] false = .error (.keyError "Rod") := by
  refine ⟨?_, ?_, ?_⟩ <;>
    simp [getPeriodKey, Dict.find?_cons, Dict.get, partSubscripts, Dict.set, ordinals, periodKeyFor]

/-! ## C55 -/

/-- Helper: the collected lists after processing `kts`. -/
theorem collect_spec {F V : Type} (load : F → Except PyErr (String × V)) (files : List F)
    (kts : List (String × V)) (h : files.map load = kts.map .ok) :
    ∃ d : Dict (List V), collectPeriods load files = .ok d ∧ (Dict.keys d).Nodup ∧
      ∀ k, Dict.find? d k = if k ∈ kts.map Prod.fst then
        some ((kts.filter fun e => decide (e.1 = k)).map Prod.snd) else none := by
  suffices H : ∀ (files : List F) (kts done : List (String × V)) (acc : Dict (List V)),
      files.map load = kts.map .ok → (Dict.keys acc).Nodup →
      (∀ k, Dict.find? acc k = if k ∈ done.map Prod.fst then
        some ((done.filter fun e => decide (e.1 = k)).map Prod.snd) else none) →
      ∃ d : Dict (List V), files.foldlM (collectStep load) acc = .ok d ∧
        (Dict.keys d).Nodup ∧ ∀ k, Dict.find? d k = if k ∈ (done ++ kts).map Prod.fst then
        some (((done ++ kts).filter fun e => decide (e.1 = k)).map Prod.snd) else none by
    have := H files kts [] [] h (by simp [Dict.keys]) (by simp)
    simpa [collectPeriods] using this
  intro files
  induction files with
  | nil =>
    intro kts done acc h hn hf
    have : kts = [] := by simpa using h.symm
    subst this
    exact ⟨acc, rfl, hn, by rw [List.append_nil]; exact hf⟩
  | cons f files ih =>
    intro kts done acc h hn hf
    cases kts with
    | nil => simp at h
    | cons e kts =>
      obtain ⟨k0, T⟩ := e
      simp only [List.map_cons, List.cons.injEq] at h
      have hstep : collectStep load acc f =
          .ok (Dict.set acc k0 ((Dict.find? acc k0).getD [] ++ [T])) := by
        unfold collectStep; rw [h.1]
      have hspec : ∀ k, Dict.find? (Dict.set acc k0 ((Dict.find? acc k0).getD [] ++ [T])) k =
          if k ∈ (done ++ [(k0, T)]).map Prod.fst then
            some (((done ++ [(k0, T)]).filter fun e => decide (e.1 = k)).map Prod.snd) else none := by
        intro k
        rw [Dict.find?_set]
        by_cases hkk : k0 = k
        · subst hkk
          have hd : (Dict.find? acc k0).getD [] =
              (done.filter fun e => decide (e.1 = k0)).map Prod.snd := by
            rw [hf k0]
            split
            · rfl
            · rename_i hno
              have : done.filter (fun e => decide (e.1 = k0)) = [] := by
                rw [List.filter_eq_nil_iff]
                intro e he hek
                exact hno (List.mem_map.2 ⟨e, he, by simpa using hek⟩)
              simp [this]
          rw [hd]
          simp
        · have hkk' : ¬ k = k0 := fun e => hkk e.symm
          simp only [hkk, if_false, hf k, List.map_append, List.map_cons, List.map_nil,
            List.mem_append, List.mem_singleton, hkk', or_false, List.filter_append]
          simp [hkk]
      obtain ⟨d, h1, h2, h3⟩ := ih kts (done ++ [(k0, T)]) _ h.2 (Dict.nodup_set _ _ _ hn) hspec
      refine ⟨d, ?_, h2, ?_⟩
      · rw [List.foldlM_cons, hstep]; exact h1
      · rw [show done ++ (k0, T) :: kts = done ++ [(k0, T)] ++ kts by simp]; exact h3

/-- Helper: a successful run has loaded every file. -/
theorem collect_loads {F V : Type} (load : F → Except PyErr (String × V)) (files : List F) :
    ∀ (acc d : Dict (List V)), files.foldlM (collectStep load) acc = .ok d →
      ∃ kts : List (String × V), files.map load = kts.map .ok := by
  induction files with
  | nil => intro acc d _; exact ⟨[], rfl⟩
  | cons f fs ih =>
    intro acc d hd
    rw [List.foldlM_cons] at hd
    cases hl : load f with
    | error e =>
      have : collectStep load acc f = .error e := by unfold collectStep; rw [hl]
      rw [this] at hd; cases hd
    | ok kT =>
      have : collectStep load acc f =
          .ok (Dict.set acc kT.1 ((Dict.find? acc kT.1).getD [] ++ [kT.2])) := by
        unfold collectStep; rw [hl]
      rw [this] at hd
      obtain ⟨kts, e⟩ := ih _ d hd
      exact ⟨kT :: kts, by simp [hl, e]⟩

theorem find?_map_snd {β γ : Type} (d : Dict β) (f : β → γ) (k : String) :
    Dict.find? (d.map fun kv => (kv.1, f kv.2)) k = (Dict.find? d k).map f := by
  induction d with
  | nil => rfl
  | cons e d ih =>
    rw [List.map_cons, Dict.find?_cons, ih]
    obtain ⟨k', v⟩ := e
    rw [Dict.find?_cons]
    split <;> simp

/-- **C55.** When every file loads (to a key and a period), the result has one entry per
key that occurs, namely the mean of all periods recorded under that key, in file order. -/
theorem C55_mean_per_experiment {F V : Type} (mean : List V → V)
    (load : F → Except PyErr (String × V)) (files : List F) (kts : List (String × V))
    (h : files.map load = kts.map .ok) :
    ∃ d, calcPeriodsForFiles mean load files = .ok d ∧ (Dict.keys d).Nodup ∧
      ∀ k, Dict.find? d k = if k ∈ kts.map Prod.fst then
        some (mean ((kts.filter fun e => decide (e.1 = k)).map Prod.snd)) else none := by
  obtain ⟨d, h1, h2, h3⟩ := collect_spec load files kts h
  refine ⟨d.map fun kv => (kv.1, mean kv.2), by unfold calcPeriodsForFiles; rw [h1], ?_, ?_⟩
  · simpa [Dict.keys, Function.comp_def] using h2
  · intro k
    rw [find?_map_snd, h3]
    split <;> rfl

/-- **C55.** The order in which the files are listed does not matter. -/
theorem C55_file_order (load : String → Except PyErr (String × ℝ)) (files files' : List String)
    (hp : files.Perm files') (d d' : Dict ℝ)
    (h : calcPeriodsForFiles listMean load files = .ok d)
    (h' : calcPeriodsForFiles listMean load files' = .ok d') (k : String) :
    Dict.find? d k = Dict.find? d' k := by
  have key : ∀ (fs : List String) (d : Dict ℝ), calcPeriodsForFiles listMean load fs = .ok d →
      ∃ kts : List (String × ℝ), fs.map load = kts.map .ok := by
    intro fs d hd
    unfold calcPeriodsForFiles at hd
    cases hc : collectPeriods load fs with
    | error e => rw [hc] at hd; cases hd
    | ok d0 => exact collect_loads load fs [] d0 hc
  obtain ⟨kts, e⟩ := key files d h
  obtain ⟨kts', e'⟩ := key files' d' h'
  have hperm : kts.Perm kts' := by
    have h1 : (kts.map (Except.ok : _ → Except PyErr (String × ℝ))).Perm (kts'.map .ok) := by
      rw [← e, ← e']; exact hp.map _
    have h2 := h1.filterMap (fun x => match x with | Except.ok a => some a | Except.error _ => none)
    simpa [List.filterMap_map, Function.comp_def] using h2
  obtain ⟨d1, a1, _, a3⟩ := C55_mean_per_experiment listMean load files kts e
  obtain ⟨d2, b1, _, b3⟩ := C55_mean_per_experiment listMean load files' kts' e'
  rw [h] at a1; cases a1
  rw [h'] at b1; cases b1
  rw [a3, b3]
  have hm : k ∈ kts.map Prod.fst ↔ k ∈ kts'.map Prod.fst := (hperm.map Prod.fst).mem_iff
  have hq := (hperm.filter fun e => decide (e.1 = k)).map Prod.snd
  have : listMean ((kts.filter fun e => decide (e.1 = k)).map Prod.snd) =
      listMean ((kts'.filter fun e => decide (e.1 = k)).map Prod.snd) := by
    unfold listMean; rw [hq.sum_eq, hq.length_eq]
  simp only [hm, this]

/-! ## C56 -/

theorem maxAbs_spec (l : List ℝ) : (∀ x ∈ l, |x| ≤ maxAbs l) ∧ (l ≠ [] → ∃ x ∈ l, |x| = maxAbs l) := by
  induction l with
  | nil => simp
  | cons a l ih =>
    have hm : maxAbs (a :: l) = max |a| (maxAbs l) := rfl
    rw [hm]
    refine ⟨?_, fun _ => ?_⟩
    · intro x hx
      rcases List.mem_cons.1 hx with rfl | hx
      · exact le_max_left _ _
      · exact le_trans (ih.1 x hx) (le_max_right _ _)
    · rcases le_total (maxAbs l) |a| with h | h
      · exact ⟨a, by simp, by rw [max_eq_left h]⟩
      · cases l with
        | nil =>
          have h0 : maxAbs ([] : List ℝ) = 0 := rfl
          have : |a| = 0 := le_antisymm (by rw [h0] at h; exact h) (abs_nonneg a)
          exact ⟨a, by simp, by rw [max_eq_right h, h0, this]⟩
        | cons b l =>
          obtain ⟨x, hx, e⟩ := ih.2 (by simp)
          exact ⟨x, List.mem_cons_of_mem _ hx, by rw [max_eq_right h, e]⟩

theorem argmaxAbs_spec (l : List ℝ) (hl : l ≠ []) :
    ∃ h : argmaxAbs l < l.length, |l[argmaxAbs l]| = maxAbs l ∧
      ∀ (k : ℕ) (hk : k < argmaxAbs l), |l[k]'(lt_trans hk h)| < maxAbs l := by
  obtain ⟨hle, hex⟩ := maxAbs_spec l
  obtain ⟨x, hx, e⟩ := hex hl
  have h : argmaxAbs l < l.length := by
    unfold argmaxAbs
    exact List.findIdx_lt_length_of_exists ⟨x, hx, by simp [e]⟩
  refine ⟨h, ?_, fun k hk => ?_⟩
  · have := List.findIdx_getElem (p := fun x => decide (|x| = maxAbs l)) (w := h)
    exact of_decide_eq_true this
  · have := List.not_of_lt_findIdx (p := fun x => decide (|x| = maxAbs l)) (xs := l) hk
    simp at this
    exact lt_of_le_of_ne (hle _ (List.getElem_mem _)) this

theorem lastAbove_spec (l : List ℝ) (thr : ℝ) (j : ℕ) :
    lastAbove l thr = some j ↔ ∃ h : j < l.length, thr < l[j] ∧
      ∀ (k : ℕ) (hk : k < l.length), j < k → l[k] ≤ thr := by
  unfold lastAbove
  cases hf : l.reverse.findIdx? fun x => decide (thr < x) with
  | none =>
    rw [List.findIdx?_eq_none_iff] at hf
    simp only [reduceCtorEq, false_iff]
    rintro ⟨h, h1, _⟩
    have := hf l[j] (by simp)
    simp at this
    linarith
  | some i =>
    rw [List.findIdx?_eq_some_iff_getElem] at hf
    obtain ⟨hi, h1, h2⟩ := hf
    simp only [List.length_reverse] at hi
    simp only [List.getElem_reverse, decide_eq_true_eq] at h1
    simp only [Option.some.injEq]
    constructor
    · rintro rfl
      refine ⟨by omega, h1, fun k hk hjk => ?_⟩
      have := h2 (l.length - 1 - k) (by omega)
      simp only [List.getElem_reverse, decide_eq_true_eq, not_lt] at this
      have e : l.length - 1 - (l.length - 1 - k) = k := by omega
      simpa [e] using this
    · rintro ⟨h, a1, a2⟩
      by_contra hne
      rcases lt_or_gt_of_ne hne with hlt | hgt
      · -- l.length - 1 - i < j
        have hk : l.length - 1 - j < i := by omega
        have := h2 _ hk
        simp only [List.getElem_reverse, decide_eq_true_eq, not_lt] at this
        have e : l.length - 1 - (l.length - 1 - j) = j := by omega
        simp only [e] at this
        linarith
      · have := a2 (l.length - 1 - i) (by omega) hgt
        linarith

/-- Specification: deviation of sample `k` from the mean of the data. -/
noncomputable def Spec.deviation (data : List ℝ) (k : ℕ) : ℝ :=
  data.getD k 0 - data.sum / data.length

/-- Specification: `i` is the first sample with the largest deviation, `j` the last sample
whose deviation is above `percent` of it. -/
def Spec.goodRange (data : List ℝ) (percent : ℝ) (i j : ℕ) : Prop :=
  i < data.length ∧ j < data.length ∧
  (∀ k < data.length, |Spec.deviation data k| ≤ |Spec.deviation data i|) ∧
  (∀ k < i, |Spec.deviation data k| < |Spec.deviation data i|) ∧
  percent * |Spec.deviation data i| < Spec.deviation data j ∧
  (∀ k < data.length, j < k → Spec.deviation data k ≤ percent * |Spec.deviation data i|)

/-- **C56.** `select_good_data` returns the samples from `i` up to but not including `j`. -/
theorem C56_slice (data : List ℝ) (percent : ℝ) (out : List ℝ) :
    selectGoodData data percent = .ok out ↔
      ∃ i j, Spec.goodRange data percent i j ∧ out = (data.take j).drop i := by
  unfold selectGoodData
  by_cases hd : data = []
  · subst hd
    simp [Spec.goodRange]
  rw [if_neg hd]
  simp only []
  set l := data.map fun x => x - listMean data with hl
  have hlen : l.length = data.length := by simp [hl]
  have hlne : l ≠ [] := by simpa [hl] using hd
  have hdev : ∀ (k : ℕ) (hk : k < l.length), l[k] = Spec.deviation data k := by
    intro k hk
    simp [hl, Spec.deviation, listMean, List.getD_eq_getElem?_getD,
      List.getElem?_eq_getElem (show k < data.length by omega)]
  obtain ⟨hi, h1, h2⟩ := argmaxAbs_spec l hlne
  obtain ⟨hle, _⟩ := maxAbs_spec l
  have hmax : maxAbs l = |Spec.deviation data (argmaxAbs l)| := by rw [← h1, hdev _ hi]
  constructor
  · intro h
    cases hla : lastAbove l (percent * maxAbs l) with
    | none => rw [hla] at h; simp at h
    | some j =>
      rw [hla] at h
      simp only [Except.ok.injEq] at h
      obtain ⟨hj, b1, b2⟩ := (lastAbove_spec _ _ _).1 hla
      refine ⟨argmaxAbs l, j, ⟨by omega, by omega, ?_, ?_, ?_, ?_⟩, h.symm⟩
      · intro k hk
        rw [← hmax, ← hdev k (by omega)]
        exact hle _ (List.getElem_mem _)
      · intro k hk
        rw [← hmax, ← hdev k (by omega)]
        exact h2 k hk
      · rw [← hmax, ← hdev j hj]; exact b1
      · intro k hk hjk
        rw [← hmax, ← hdev k (by omega)]; exact b2 k (by omega) hjk
  · rintro ⟨i, j, ⟨g1, g2, g3, g4, g5, g6⟩, rfl⟩
    have hii : i = argmaxAbs l := by
      by_contra hne
      rcases lt_or_gt_of_ne hne with hlt | hgt
      · have := h2 i hlt
        rw [hdev, hmax] at this
        have := g3 (argmaxAbs l) (by omega)
        linarith
      · have := g4 _ hgt
        have := hle l[i] (List.getElem_mem (by omega))
        rw [hdev, hmax] at this
        linarith
    subst hii
    have : lastAbove l (percent * maxAbs l) = some j := by
      rw [lastAbove_spec]
      refine ⟨by omega, ?_, ?_⟩
      · rw [hdev, hmax]; exact g5
      · intro k hk hjk
        rw [hdev, hmax]; exact g6 k (by omega) hjk
    rw [this]

/-- **C56.** The call fails exactly for empty data (`ValueError`) and when no sample lies
above the threshold (`UnboundLocalError`), in particular for constant data. -/
theorem C56_failures (data : List ℝ) (percent : ℝ) :
    (selectGoodData data percent = .error .valueError ↔ data = []) ∧
    (selectGoodData data percent = .error .unboundLocal ↔ data ≠ [] ∧
      ∀ i < data.length, (∀ k < data.length, |Spec.deviation data k| ≤ |Spec.deviation data i|) →
        ∀ j < data.length, Spec.deviation data j ≤ percent * |Spec.deviation data i|) := by
  unfold selectGoodData
  by_cases hd : data = []
  · subst hd; simp
  rw [if_neg hd]
  simp only []
  set l := data.map fun x => x - listMean data with hl
  have hlen : l.length = data.length := by simp [hl]
  have hlne : l ≠ [] := by simpa [hl] using hd
  have hdev : ∀ (k : ℕ) (hk : k < l.length), l[k] = Spec.deviation data k := by
    intro k hk
    simp [hl, Spec.deviation, listMean, List.getD_eq_getElem?_getD,
      List.getElem?_eq_getElem (show k < data.length by omega)]
  obtain ⟨hi, h1, h2⟩ := argmaxAbs_spec l hlne
  obtain ⟨hle, _⟩ := maxAbs_spec l
  have hmax : maxAbs l = |Spec.deviation data (argmaxAbs l)| := by rw [← h1, hdev _ hi]
  refine ⟨?_, ?_⟩
  · cases lastAbove l (percent * maxAbs l) <;> simp [hd]
  · constructor
    · intro h
      refine ⟨hd, fun i hi' hmx j hj => ?_⟩
      have hieq : |Spec.deviation data i| = maxAbs l := by
        apply le_antisymm
        · rw [← hdev i (by omega)]; exact hle _ (List.getElem_mem _)
        · rw [hmax]; exact hmx _ (by omega)
      rw [hieq]
      by_contra hlt
      push Not at hlt
      have : (l.reverse.findIdx? fun x => decide (percent * maxAbs l < x)) ≠ none := by
        rw [Ne, List.findIdx?_eq_none_iff]
        intro hall
        have := hall l[j] (by simp)
        simp [hdev] at this
        linarith
      unfold lastAbove at h
      cases hf : l.reverse.findIdx? fun x => decide (percent * maxAbs l < x) with
      | none => exact this hf
      | some q => rw [hf] at h; simp at h
    · rintro ⟨_, h⟩
      cases hla : lastAbove l (percent * maxAbs l) with
      | none => rfl
      | some j =>
        exfalso
        obtain ⟨hj, b1, b2⟩ := (lastAbove_spec _ _ _).1 hla
        have := h (argmaxAbs l) (by omega) (by
          intro k hk
          rw [← hmax, ← hdev k (by omega)]; exact hle _ (List.getElem_mem _)) j (by omega)
        rw [hdev, hmax] at b1
        linarith

/-- **C56.** When the last large sample comes before the extreme one (a recording that ends
near a trough of growing amplitude), the selected data are empty. -/
theorem C56_may_be_empty : selectGoodData [1, -3, 2, -5] (1 / 10) = .ok [] := by
  rw [C56_slice]
  refine ⟨3, 2, ⟨by simp, by simp, ?_, ?_, ?_, ?_⟩, by simp⟩
  · intro k hk; simp at hk
    interval_cases k <;> norm_num [Spec.deviation, abs_of_neg, abs_of_pos]
  · intro k hk
    interval_cases k <;> norm_num [Spec.deviation, abs_of_neg, abs_of_pos]
  · norm_num [Spec.deviation, abs_of_neg]
  · intro k hk hjk; simp at hk
    interval_cases k; norm_num [Spec.deviation, abs_of_neg]

/-! ## C79 -/

/-- **C79.** With an integer sample rate, sample `i` of two or more is at time `i / rate`. -/
theorem C79_sample_times (n : ℕ) (rate : ℝ) (hn : 2 ≤ n) (i : ℕ) :
    sampleTime n rate i = i / rate := by
  have : (n : ℝ) - 1 ≠ 0 := by
    have : (2 : ℝ) ≤ n := by exact_mod_cast hn
    linarith
  unfold sampleTime
  by_cases hr : rate = 0
  · subst hr; simp
  · field_simp

/-- **C79.** The actual rate is preferred over the nominal one; without both the call raises. -/
theorem C79_sample_rate {V : Type} (md : Dict V) (r : V) :
    (getSampleRate md = .ok r ↔ Dict.find? md "ActualRate" = some r ∨
      Dict.find? md "ActualRate" = none ∧ Dict.find? md "sampleRate" = some r) ∧
    (Dict.find? md "ActualRate" = none → Dict.find? md "sampleRate" = none →
      getSampleRate md = .error (.keyError "sampleRate")) := by
  unfold getSampleRate Dict.has Dict.get
  cases h1 : Dict.find? md "ActualRate" <;> cases h2 : Dict.find? md "sampleRate" <;> simp

end BP
