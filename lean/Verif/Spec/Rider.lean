import Verif.Spec.Plane
import Mathlib.LinearAlgebra.CrossProduct

/-!
# Specification: a seated rider

The rider's joints in Yeadon's frame (x to the left, y backwards, z up; origin at the hip
centre), as chains of rotations, and the points of the bicycle they have to reach.
-/

namespace BP.Spec

open Matrix Real

noncomputable def rotX (a : ℝ) : Matrix (Fin 3) (Fin 3) ℝ :=
  !![1, 0, 0; 0, cos a, -sin a; 0, sin a, cos a]

noncomputable def rotY (a : ℝ) : Matrix (Fin 3) (Fin 3) ℝ :=
  !![cos a, 0, sin a; 0, 1, 0; -sin a, 0, cos a]

noncomputable def rotZ (a : ℝ) : Matrix (Fin 3) (Fin 3) ℝ :=
  !![cos a, -sin a, 0; sin a, cos a, 0; 0, 0, 1]

/-- A vector of length `l` pointing down (a limb that hangs). -/
def hanging (l : ℝ) : Fin 3 → ℝ := ![0, 0, -l]

/-- The foot, seen from the side: the thigh turns with the pelvis and the hip, the shank also
with the knee. -/
noncomputable def footPoint (pelvis hip knee thigh shank : ℝ) : Fin 3 → ℝ :=
  (rotX pelvis * rotX hip) *ᵥ hanging thigh + (rotX pelvis * rotX hip * rotX knee) *ᵥ hanging shank

/-- The frame of an upper arm. -/
noncomputable def armFrame (pelvis ext add rot : ℝ) : Matrix (Fin 3) (Fin 3) ℝ :=
  rotX pelvis * rotX ext * rotY add * rotZ rot

/-- A hand: shoulder (`half` to the left of the centre line, `torso` above the hips), upper arm,
forearm. -/
noncomputable def handPoint (pelvis torso half ext add rot elbow upper fore : ℝ) : Fin 3 → ℝ :=
  rotX pelvis *ᵥ ![half, 0, torso] + armFrame pelvis ext add rot *ᵥ hanging upper +
    (armFrame pelvis ext add rot * rotX elbow) *ᵥ hanging fore

/-- The axis about which an elbow turns. -/
noncomputable def elbowAxis (pelvis ext add rot : ℝ) : Fin 3 → ℝ :=
  armFrame pelvis ext add rot *ᵥ ![1, 0, 0]

/-- Left and right exchanged (Yeadon's frame). -/
def mirror (v : Fin 3 → ℝ) : Fin 3 → ℝ := ![-v 0, v 1, v 2]

end BP.Spec
