import Mathlib.LinearAlgebra.CrossProduct
import Mathlib.Analysis.SpecialFunctions.Trigonometric.Basic

/-!
# Specification: points, lines and the steer axis

Coordinates in the symmetry plane are `(x, z)`: x forward, z down, ground z = 0.
-/

namespace BP.Spec

open Real Matrix

/-- Euclidean distance in space. -/
noncomputable def dist3 (a b : Fin 3 → ℝ) : ℝ :=
  √((a 0 - b 0) ^ 2 + (a 1 - b 1) ^ 2 + (a 2 - b 2) ^ 2)

/-- A point on the line through `p` and `q`. -/
def onLine (p q x : Fin 3 → ℝ) : Prop := ∃ t : ℝ, x = p + t • (q - p)

/-- Signed distance by which the point `(x, z)` lies ahead of the axis that meets the
ground at `(xg, 0)` and has the downward direction `(sin λ, cos λ)`. -/
noncomputable def aheadOfAxis (xg lam x z : ℝ) : ℝ := (x - xg) * cos lam - z * sin lam

/-- Coordinate of a point along that axis, measured downwards. -/
noncomputable def alongAxis (lam x z : ℝ) : ℝ := x * sin lam + z * cos lam

/-- The absolute value of `aheadOfAxis` is the distance to the closest axis point. -/
theorem aheadOfAxis_isLeast (xg lam x z : ℝ) :
    (∀ t : ℝ, |aheadOfAxis xg lam x z| ≤
      √((x - (xg + t * sin lam)) ^ 2 + (z - t * cos lam) ^ 2)) ∧
    ∃ t : ℝ, |aheadOfAxis xg lam x z| =
      √((x - (xg + t * sin lam)) ^ 2 + (z - t * cos lam) ^ 2) := by
  have hsc := sin_sq_add_cos_sq lam
  have key : ∀ t : ℝ, (x - (xg + t * sin lam)) ^ 2 + (z - t * cos lam) ^ 2 =
      aheadOfAxis xg lam x z ^ 2 + (alongAxis lam (x - xg) z - t) ^ 2 := by
    intro t
    simp only [aheadOfAxis, alongAxis]
    linear_combination (-((x - xg) ^ 2 + z ^ 2 - t ^ 2)) * hsc
  refine ⟨fun t => ?_, alongAxis lam (x - xg) z, ?_⟩
  · rw [key t]
    apply Real.abs_le_sqrt
    nlinarith [sq_nonneg (alongAxis lam (x - xg) z - t)]
  · rw [key, sub_self]; simp [Real.sqrt_sq_eq_abs]

end BP.Spec
