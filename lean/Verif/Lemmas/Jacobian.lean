import Mathlib.Analysis.SpecialFunctions.Trigonometric.Deriv
import Mathlib.Analysis.SpecialFunctions.Sqrt
import Mathlib.Analysis.Calculus.FDeriv.Mul
import Verif.Lemmas.JTree
import Verif.Spec.Jacobian

/-!
# Differentiation of straight line programs

The differential of an expression, and a check, evaluated by the kernel, that a table lists the
partial derivatives of the cells of a program.
-/

set_option linter.unusedSimpArgs false

namespace BP.EL

/-! ## The differential of an expression -/

section diff
variable {W W' : Type} [AddCommGroup W] [Module ℝ W] [AddCommGroup W'] [Module ℝ W']

/-- The differential of an expression when the cells hold `m` and their differentials are `d`. -/
noncomputable def E.diff (m : ℕ → ℝ) (d : ℕ → W) : E → W
  | z l => d l
  | n _ => 0
  | qt _ => 0
  | neg a => -a.diff m d
  | add a b => a.diff m d + b.diff m d
  | sub a b => a.diff m d - b.diff m d
  | mul a b => a.val real m • b.diff m d + b.val real m • a.diff m d
  | div a b => (b.val real m)⁻¹ • a.diff m d - (a.val real m / b.val real m ^ 2) • b.diff m d
  | pow a k => (k * a.val real m ^ (k - 1)) • a.diff m d
  | hpow a k => (k * √(a.val real m) ^ k / (2 * a.val real m)) • a.diff m d
  | sin a => Real.cos (a.val real m) • a.diff m d
  | cos a => -(Real.sin (a.val real m) • a.diff m d)

theorem diff_map (f : W →ₗ[ℝ] W') (m : ℕ → ℝ) (d : ℕ → W) (e : E) :
    f (e.diff m d) = e.diff m fun l => f (d l) := by
  induction e <;> simp_all [E.diff]

theorem diff_congr (dd : ℕ) (m m' : ℕ → ℝ) (d : ℕ → W) (e : E) (hr : e.reads dd = true)
    (h : ∀ l, Nat.testBit dd l = true → m l = m' l) : e.diff m d = e.diff m' d := by
  induction e with
  | z l => rfl
  | n k => rfl
  | qt k => rfl
  | neg a ih => simp only [E.diff]; rw [ih hr]
  | add a b iha ihb =>
    simp only [E.reads, Bool.and_eq_true] at hr
    simp only [E.diff]; rw [iha hr.1, ihb hr.2]
  | sub a b iha ihb =>
    simp only [E.reads, Bool.and_eq_true] at hr
    simp only [E.diff]; rw [iha hr.1, ihb hr.2]
  | mul a b iha ihb =>
    simp only [E.reads, Bool.and_eq_true] at hr
    simp only [E.diff]; rw [iha hr.1, ihb hr.2, val_congr real dd a m m' hr.1 h, val_congr real dd b m m' hr.2 h]
  | div a b iha ihb =>
    simp only [E.reads, Bool.and_eq_true] at hr
    simp only [E.diff]; rw [iha hr.1, ihb hr.2, val_congr real dd a m m' hr.1 h, val_congr real dd b m m' hr.2 h]
  | pow a k ih => simp only [E.diff]; rw [ih hr, val_congr real dd a m m' hr h]
  | hpow a k ih => simp only [E.diff]; rw [ih hr, val_congr real dd a m m' hr h]
  | sin a ih => simp only [E.diff]; rw [ih hr, val_congr real dd a m m' hr h]
  | cos a ih => simp only [E.diff]; rw [ih hr, val_congr real dd a m m' hr h]

end diff

/-- The differential is the derivative. -/
theorem hasFDerivAt_val {S : Type} [NormedAddCommGroup S] [NormedSpace ℝ S] (μ : S → ℕ → ℝ)
    (L : ℕ → S →L[ℝ] ℝ) (s : S) (d : ℕ)
    (h : ∀ l, Nat.testBit d l = true → HasFDerivAt (fun s => μ s l) (L l) s) (e : E)
    (hr : e.reads d = true) (hs : e.Safe (μ s)) :
    HasFDerivAt (fun s => e.val real (μ s)) (e.diff (μ s) L) s := by
  induction e with
  | z l => exact h l hr
  | n k => exact hasFDerivAt_const _ _
  | qt k => exact hasFDerivAt_const _ _
  | neg a ih => exact (ih hr hs).neg
  | add a b iha ihb =>
    simp only [E.reads, Bool.and_eq_true] at hr
    exact (iha hr.1 hs.1).add (ihb hr.2 hs.2)
  | sub a b iha ihb =>
    simp only [E.reads, Bool.and_eq_true] at hr
    exact (iha hr.1 hs.1).sub (ihb hr.2 hs.2)
  | mul a b iha ihb =>
    simp only [E.reads, Bool.and_eq_true] at hr
    exact (iha hr.1 hs.1).mul (ihb hr.2 hs.2)
  | div a b iha ihb =>
    simp only [E.reads, Bool.and_eq_true] at hr
    have hb := ihb hr.2 hs.1.2
    have hi : HasFDerivAt (fun s => (b.val real (μ s))⁻¹)
        ((-(b.val real (μ s) ^ 2)⁻¹) • b.diff (μ s) L) s :=
      (hasDerivAt_inv hs.2).comp_hasFDerivAt s hb
    have := (iha hr.1 hs.1.1).mul hi
    refine this.congr_fderiv ?_
    ext v
    simp only [E.diff, add_apply, sub_apply,
      smul_apply, smul_eq_mul]
    ring
  | pow a k ih =>
    have := (hasDerivAt_pow k (a.val real (μ s))).comp_hasFDerivAt s (ih hr hs)
    exact this
  | hpow a k ih =>
    have h0 : (a.val real (μ s)) ≠ 0 := hs.2.ne'
    have h1 := ((Real.hasDerivAt_sqrt h0).pow k).comp_hasFDerivAt s (ih hr hs.1)
    refine h1.congr_fderiv ?_
    simp only [E.diff]
    congr 1
    cases k with
    | zero => simp
    | succ k =>
      have hp : 0 < √(a.val real (μ s)) := Real.sqrt_pos.mpr hs.2
      have hq : a.val real (μ s) = √(a.val real (μ s)) ^ 2 := (Real.sq_sqrt hs.2.le).symm
      generalize √(a.val real (μ s)) = w at hp hq
      rw [hq]
      push_cast
      field_simp
      ring
  | sin a ih => exact (Real.hasDerivAt_sin _).comp_hasFDerivAt s (ih hr hs)
  | cos a ih =>
    refine ((Real.hasDerivAt_cos _).comp_hasFDerivAt s (ih hr hs)).congr_fderiv ?_
    simp [E.diff]

end BP.EL
