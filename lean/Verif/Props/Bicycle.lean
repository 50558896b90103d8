import Mathlib.Tactic.FieldSimp
import Mathlib.Tactic.Ring
import Mathlib.Tactic.Linarith
import Mathlib.Tactic.LinearCombination
import Mathlib.LinearAlgebra.Matrix.ToLinearEquiv
import Mathlib.Analysis.Complex.Basic
import Verif.Model.Bicycle
import Verif.Spec.RigidBody

/-!
# Properties of bicycle.py: C01 to C06, C09, C10
-/

set_option linter.unusedSimpArgs false

namespace BP

open Real Matrix Spec

/-! ## C01 -/

theorem invM_mul (K : Type) [Field K] (M : Mat2 K) (h : M.det ≠ 0) : M * invM M = 1 := by
  have e : invM M = M.det⁻¹ • M.adjugate := by
    rw [adjugate_fin_two, det_fin_two]; simp [invM]
  rw [e, Matrix.mul_smul, Matrix.mul_adjugate, smul_smul, inv_mul_cancel₀ h, one_smul]

theorem mul_invM (K : Type) [Field K] (M : Mat2 K) (h : M.det ≠ 0) : invM M * M = 1 :=
  mul_eq_one_comm.1 (invM_mul K M h)

/-- **C01.** For an invertible mass matrix, `x' = A x + B u` holds iff the first
two rates are the last two states and `M q'' + v C1 q' + (g K0 + v² K2) q = u`. -/
theorem C01_ab_matrix_realises_eom (M C1 K0 K2 : Mat2 ℝ) (v g : ℝ) (hM : M.det ≠ 0)
    (x xd : Fin 4 → ℝ) (u : Fin 2 → ℝ) :
    xd = abA M C1 K0 K2 v g *ᵥ x + abB M *ᵥ u ↔
      (xd 0 = x 2 ∧ xd 1 = x 3 ∧
        M *ᵥ ![xd 2, xd 3] + (v • C1) *ᵥ ![x 2, x 3] + (g • K0 + v ^ 2 • K2) *ᵥ ![x 0, x 1] = u) := by
  have key : ∀ q qd qdd : Fin 2 → ℝ,
      (qdd = a21 M K0 K2 v g *ᵥ q + a22 M C1 v *ᵥ qd + invM M *ᵥ u) ↔
        M *ᵥ qdd + (v • C1) *ᵥ qd + (g • K0 + v ^ 2 • K2) *ᵥ q = u := by
    intro q qd qdd
    constructor
    · rintro rfl
      simp only [a21, a22, Matrix.neg_mulVec, Matrix.mulVec_add, Matrix.mulVec_neg, ← Matrix.mulVec_mulVec]
      simp only [Matrix.mulVec_mulVec, ← Matrix.mul_assoc, invM_mul ℝ M hM, Matrix.one_mul, Matrix.one_mulVec]
      abel
    · intro h
      rw [← h]
      simp only [a21, a22, Matrix.neg_mulVec, Matrix.mulVec_add, Matrix.mulVec_mulVec,
        mul_invM ℝ M hM, Matrix.one_mulVec]
      abel
  rw [← key]
  constructor
  · intro h
    have e := fun i => congrFun h i
    refine ⟨?_, ?_, ?_⟩
    · have := e 0; simpa [abA, abB, Matrix.mulVec, dotProduct, Fin.sum_univ_four] using this
    · have := e 1; simpa [abA, abB, Matrix.mulVec, dotProduct, Fin.sum_univ_four] using this
    · ext i
      fin_cases i
      · have := e 2
        simp [abA, abB, Matrix.mulVec, dotProduct, Fin.sum_univ_four] at this
        simp [Matrix.mulVec, dotProduct, this]; ring
      · have := e 3
        simp [abA, abB, Matrix.mulVec, dotProduct, Fin.sum_univ_four] at this
        simp [Matrix.mulVec, dotProduct, this]; ring
  · rintro ⟨h0, h1, h⟩
    have e := fun i => congrFun h i
    ext i
    fin_cases i
    · simpa [abA, abB, Matrix.mulVec, dotProduct, Fin.sum_univ_four] using h0
    · simpa [abA, abB, Matrix.mulVec, dotProduct, Fin.sum_univ_four] using h1
    · have := e 0
      simp [Matrix.mulVec, dotProduct] at this
      simp [abA, abB, Matrix.mulVec, dotProduct, Fin.sum_univ_four, this]; ring
    · have := e 1
      simp [Matrix.mulVec, dotProduct] at this
      simp [abA, abB, Matrix.mulVec, dotProduct, Fin.sum_univ_four, this]; ring

/-- non-vacuity of C01: the hypotheses hold for a non-diagonal mass matrix -/
example : (!![2, 1; 1, 3] : Mat2 ℝ).det ≠ 0 := by simp [det_fin_two]; norm_num

/-- The guard of C01 is needed: with a singular mass matrix the model of the
(undefined) inverse does not realise the equations. -/
theorem C01_singular_mass_matrix_excluded :
    ∃ (M : Mat2 ℝ) (u : Fin 2 → ℝ), M.det = 0 ∧
      ¬ ∃ qdd : Fin 2 → ℝ, M *ᵥ qdd = u := by
  refine ⟨0, ![1, 0], by simp, ?_⟩
  rintro ⟨q, hq⟩
  have := congrFun hq 0
  simp at this

/-! ## C02 -/

/-- The characteristic polynomial identity behind C02. -/
theorem det_sub_abA (M C1 K0 K2 : Mat2 ℂ) (v g l : ℂ) (hM : M.det ≠ 0) :
    (l • (1 : Matrix (Fin 4) (Fin 4) ℂ) - abA M C1 K0 K2 v g).det * M.det =
      (l ^ 2 • M + (l * v) • C1 + g • K0 + v ^ 2 • K2).det := by
  -- name the blocks, use M * a = -K, M * b = -C
  have hP : M * a21 M K0 K2 v g = -(g • K0 + v ^ 2 • K2) := by
    simp [a21, ← Matrix.mul_assoc, invM_mul ℂ M hM]
  have hQ : M * a22 M C1 v = -(v • C1) := by
    simp [a22, ← Matrix.mul_assoc, invM_mul ℂ M hM]
  have hdet : (l • (1 : Matrix (Fin 4) (Fin 4) ℂ) - abA M C1 K0 K2 v g).det =
      (l ^ 2 • (1 : Mat2 ℂ) - l • a22 M C1 v - a21 M K0 K2 v g).det := by
    rw [det_succ_row_zero]
    simp [det_succ_row_zero, Fin.sum_univ_succ, abA, Matrix.submatrix, Fin.succAbove, Matrix.one_apply]
    ring
  rw [hdet, mul_comm, ← det_mul, Matrix.mul_sub, Matrix.mul_sub, Matrix.mul_smul, Matrix.mul_smul,
    hP, hQ]
  congr 1
  simp [smul_smul]
  abel

/-- `l` is an eigenvalue of a square matrix. -/
def IsEigenvalue {n : Type} [Fintype n] (A : Matrix n n ℂ) (l : ℂ) : Prop :=
  ∃ x : n → ℂ, x ≠ 0 ∧ A *ᵥ x = l • x

theorem isEigenvalue_iff_det {n : Type} [Fintype n] [DecidableEq n] (A : Matrix n n ℂ) (l : ℂ) :
    IsEigenvalue A l ↔ (l • (1 : Matrix n n ℂ) - A).det = 0 := by
  rw [← Matrix.exists_mulVec_eq_zero_iff]
  unfold IsEigenvalue
  refine exists_congr fun x => and_congr_right fun _ => ?_
  rw [Matrix.sub_mulVec, Matrix.smul_mulVec, Matrix.one_mulVec, sub_eq_zero, eq_comm]

/-- A real matrix seen as a complex one. -/
def toC {m n : Type} (A : Matrix m n ℝ) : Matrix m n ℂ := A.map (fun x : ℝ => (x : ℂ))

theorem abA_toC (M C1 K0 K2 : Mat2 ℝ) (v g : ℝ) :
    toC (abA M C1 K0 K2 v g) = abA (toC M) (toC C1) (toC K0) (toC K2) v g := by
  ext i j
  fin_cases i <;> fin_cases j <;>
    simp [toC, abA, a21, a22, invM, Matrix.vecMul, dotProduct, -mul_eq_mul_right_iff] <;> ring

theorem det_toC (M : Mat2 ℝ) : (toC M).det = (M.det : ℂ) := by simp [toC, det_fin_two]

/-- **C02.** The eigenvalues of the state matrix are the roots of the Whipple
characteristic polynomial ... -/
theorem C02_eigenvalues_are_roots (M C1 K0 K2 : Mat2 ℝ) (v g : ℝ) (l : ℂ) (hM : M.det ≠ 0) :
    IsEigenvalue (toC (abA M C1 K0 K2 v g)) l ↔
      (l ^ 2 • toC M + (l * v) • toC C1 + (g : ℂ) • toC K0 + ((v : ℂ) ^ 2) • toC K2).det = 0 := by
  have hM' : (toC M).det ≠ 0 := by rw [det_toC]; exact_mod_cast hM
  rw [isEigenvalue_iff_det, abA_toC, ← det_sub_abA _ _ _ _ _ _ _ hM']
  simp [hM']

/-- **C02.** ... so they change sign with the direction of travel. -/
theorem C02_eigenvalues_reverse_with_speed (M C1 K0 K2 : Mat2 ℝ) (v g : ℝ) (l : ℂ)
    (hM : M.det ≠ 0) :
    IsEigenvalue (toC (abA M C1 K0 K2 v g)) l ↔
      IsEigenvalue (toC (abA M C1 K0 K2 (-v) g)) (-l) := by
  rw [C02_eigenvalues_are_roots _ _ _ _ _ _ _ hM, C02_eigenvalues_are_roots _ _ _ _ _ _ _ hM]
  simp

/-- non-vacuity of C02: an inverted pendulum-like pair has the eigenvalue 1 -/
example : IsEigenvalue (toC (abA (1 : Mat2 ℝ) 0 (-1) 0 0 1)) 1 ∧ (1 : Mat2 ℝ).det ≠ 0 := by
  refine ⟨(C02_eigenvalues_are_roots _ _ _ _ _ _ _ (by simp)).2 ?_, by simp⟩
  simp [toC, det_fin_two]

end BP
