import Mathlib.Analysis.SpecialFunctions.Trigonometric.Basic

/-!
# The points of the wheels of a bicycle

The first axis points ahead, the second to the right, the third down: a point is on the ground if its third
coordinate is zero.  A state lists `q1`, `q2` (the place of the rear contact point), `q3` (the heading), `q4` (roll),
`q5` (pitch), `q6` (rear wheel), `q7` (steer), `q8` (front wheel), and others.
-/

namespace BP.Spec

/-- Turn a vector about the first axis. -/
noncomputable def aboutX (θ : ℝ) (v : Fin 3 → ℝ) : Fin 3 → ℝ :=
  ![v 0, Real.cos θ * v 1 - Real.sin θ * v 2, Real.sin θ * v 1 + Real.cos θ * v 2]

/-- Turn a vector about the second axis. -/
noncomputable def aboutY (θ : ℝ) (v : Fin 3 → ℝ) : Fin 3 → ℝ :=
  ![Real.cos θ * v 0 + Real.sin θ * v 2, v 1, Real.cos θ * v 2 - Real.sin θ * v 0]

/-- Turn a vector about the third axis. -/
noncomputable def aboutZ (θ : ℝ) (v : Fin 3 → ℝ) : Fin 3 → ℝ :=
  ![Real.cos θ * v 0 - Real.sin θ * v 1, Real.sin θ * v 0 + Real.cos θ * v 1, v 2]

/-- A point of the rim of a wheel that has not turned: `φ` is the angle from the lowest point. -/
noncomputable def rim (radius φ : ℝ) : Fin 3 → ℝ := ![radius * Real.sin φ, 0, radius * Real.cos φ]

/-- Where a point is that is at `v` in a frame that is turned by heading and roll and sits in the rear contact
point. -/
noncomputable def onBicycle (x : Fin 13 → ℝ) (v : Fin 3 → ℝ) : Fin 3 → ℝ :=
  ![x 0, x 1, 0] + aboutZ (x 2) (aboutX (x 3) v)

/-- Where a point of the rim of the rear wheel is.  The wheel has the radius `rr` and its centre is above the contact
point; it is turned by the pitch and by `q6`. -/
noncomputable def rearPoint (rr : ℝ) (x : Fin 13 → ℝ) (φ : ℝ) : Fin 3 → ℝ :=
  onBicycle x (![0, 0, -rr] + aboutY (x 4) (aboutY (x 5) (rim rr φ)))

/-- Where a point of the rim of the front wheel is.  From the centre of the rear wheel, in the rear frame, it is `d1`
ahead to the steer axis; then, in the front frame, that is turned by the steer angle, `d2` down and `d3` ahead to the
centre of the front wheel, which has the radius `rf` and is turned by `q8`. -/
noncomputable def frontPoint (rr rf d1 d2 d3 : ℝ) (x : Fin 13 → ℝ) (φ : ℝ) : Fin 3 → ℝ :=
  onBicycle x (![0, 0, -rr] +
    aboutY (x 4) (![d1, 0, 0] + aboutZ (x 6) (![d3, 0, d2] + aboutY (x 7) (rim rf φ))))

/-- The lowest point of the front wheel. -/
def Lowest (rr rf d1 d2 d3 : ℝ) (x : Fin 13 → ℝ) (φ : ℝ) : Prop :=
  ∀ ψ, frontPoint rr rf d1 d2 d3 x ψ 2 ≤ frontPoint rr rf d1 d2 d3 x φ 2

end BP.Spec
