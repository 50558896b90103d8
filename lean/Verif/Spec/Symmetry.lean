import Mathlib.Analysis.SpecialFunctions.Trigonometric.Basic

/-!
# Moving a bicycle to another place

A state lists `q1`, `q2` (the place of the rear contact point), `q3` (the heading), `q4` (roll), `q5` (pitch),
`q6` (rear wheel), `q7` (steer), `q8` (front wheel), `q9` (rider lean), and the speeds `u4`, `u6`, `u7`, `u9`.
-/

namespace BP.Spec

/-- Turn the first two components, a vector on the ground, by the angle `ψ`. -/
noncomputable def turnGround (ψ : ℝ) (v : Fin 13 → ℝ) : Fin 13 → ℝ :=
  ![Real.cos ψ * v 0 - Real.sin ψ * v 1, Real.sin ψ * v 0 + Real.cos ψ * v 1, v 2, v 3, v 4, v 5, v 6, v 7, v 8,
    v 9, v 10, v 11, v 12]

/-- The bicycle put somewhere else: turned by `ψ` about the origin and moved by `(a, b)`, the rear wheel turned by
`α`, the front wheel by `β`. -/
noncomputable def moved (a b ψ α β : ℝ) (x : Fin 13 → ℝ) : Fin 13 → ℝ :=
  turnGround ψ x + ![a, b, ψ, 0, 0, α, 0, β, 0, 0, 0, 0, 0]

end BP.Spec
