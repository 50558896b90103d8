import Verif.Spec.EvalLinear

/-!
# Rides in the mirror, backwards, and in other units
-/

namespace BP.Spec

/-- A state in the mirror. -/
def mirrored (x : Fin 13 → ℝ) : Fin 13 → ℝ := fun i => stateMirror i * x i

/-- Torques in the mirror. -/
def mirroredTorques (r : Fin 4 → ℝ) : Fin 4 → ℝ := fun i => speedMirror i * r i

/-- A state with all speeds reversed. -/
def reversed (x : Fin 13 → ℝ) : Fin 13 → ℝ := fun i => stateReversal i * x i

/-- A bicycle with the opposite lean damping. -/
def antidamped (p : Fin 36 → ℝ) : Fin 36 → ℝ := Function.update p 0 (-p 0)

/-- A state in other units. -/
noncomputable def inUnits (M L T : ℝ) (x : Fin 13 → ℝ) : Fin 13 → ℝ := fun i => factor M L T (stateDim i) * x i

/-- Torques in other units. -/
noncomputable def torquesInUnits (M L T : ℝ) (r : Fin 4 → ℝ) : Fin 4 → ℝ := fun i => factor M L T torqueDim * r i

/-- Parameters in other units. -/
noncomputable def parametersInUnits (M L T : ℝ) (p : Fin 36 → ℝ) : Fin 36 → ℝ :=
  fun k => factor M L T (parameterDim (evalLinearSlots.getD k "")) * p k

end BP.Spec
