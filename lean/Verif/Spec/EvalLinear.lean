import Mathlib.Data.Fin.VecNotation
import Mathlib.Data.Real.Basic
import Mathlib.Algebra.GroupWithZero.Basic

/-!
# Units and symmetries of the linear model with a leaning rider

The coordinates are `q1, q2` (position of the rear contact), `q3` yaw, `q4` roll, `q5` pitch,
`q6` rear wheel angle, `q7` steer, `q8` front wheel angle, `q9` rider lean; the speeds are the
rates `u4, u6, u7, u9`; the inputs are the torques `T4, T6, T7, T9`.  The states are the
coordinates followed by the speeds.  The outputs of the matrices `C` and `D` are the nine
coordinates followed by their nine rates.
-/

namespace BP.Spec

/-- The parameters in the order in which `eval_linear` unpacks its argument `p`,
_mooreriderlean2012.py:37-72. -/
def evalLinearSlots : List String :=
  ["c9", "d1", "d2", "d3", "d4", "g", "ic11", "ic22", "ic31", "ic33", "id11", "id22",
   "ie11", "ie22", "ie31", "ie33", "if11", "if22", "ig11", "ig22", "ig31", "ig33", "k9",
   "l1", "l2", "l3", "l4", "l5", "l6", "mc", "md", "me", "mf", "mg", "rf", "rr"]

/-- Exponents of mass, length and time. -/
abbrev Dim := ℤ × ℤ × ℤ

/-- The size of a quantity when the unit of mass is made `M` times smaller, of length `L` times,
of time `T` times. -/
noncomputable def factor (M L T : ℝ) (e : Dim) : ℝ := M ^ e.1 * L ^ e.2.1 * T ^ e.2.2

/-- Positions are lengths, angles have no dimension. -/
def coordDim : Fin 9 → Dim :=
  ![(0, 1, 0), (0, 1, 0), (0, 0, 0), (0, 0, 0), (0, 0, 0), (0, 0, 0), (0, 0, 0), (0, 0, 0), (0, 0, 0)]

/-- Angular rates. -/
def speedDim : Dim := (0, 0, -1)

/-- Torques. -/
def torqueDim : Dim := (1, 2, -2)

/-- Lengths, unless said otherwise. -/
def parameterDim (name : String) : Dim :=
  if name = "g" then (0, 1, -2)
  else if name = "c9" then (1, 2, -1)
  else if name = "k9" then (1, 2, -2)
  else if name ∈ ["mc", "md", "me", "mf", "mg"] then (1, 0, 0)
  else if name ∈ ["ic11", "ic22", "ic31", "ic33", "id11", "id22", "ie11", "ie22", "ie31", "ie33",
    "if11", "if22", "ig11", "ig22", "ig31", "ig33"] then (1, 2, 0)
  else (0, 1, 0)

/-- The states: coordinates, then speeds. -/
def stateDim (i : Fin 13) : Dim := if h : i.1 < 9 then coordDim ⟨i, h⟩ else speedDim

/-- The outputs: coordinates, then their rates. -/
def outputDim (i : Fin 18) : Dim :=
  if h : i.1 < 9 then coordDim ⟨i, h⟩ else coordDim ⟨i - 9, by omega⟩ + (0, 0, -1)

/-- The sign a coordinate takes in the mirror: the lateral position, yaw, roll, steer and lean
are reversed. -/
def coordMirror : Fin 9 → ℝ := ![1, -1, -1, -1, 1, 1, -1, 1, -1]

/-- Roll, steer and lean rate and torque are reversed, the rear wheel rate and torque are not. -/
def speedMirror : Fin 4 → ℝ := ![-1, 1, -1, -1]

/-- The states in the mirror. -/
def stateMirror (i : Fin 13) : ℝ :=
  if h : i.1 < 9 then coordMirror ⟨i, h⟩ else speedMirror ⟨i - 9, by omega⟩

/-- The outputs in the mirror. -/
def outputMirror (i : Fin 18) : ℝ :=
  if h : i.1 < 9 then coordMirror ⟨i, h⟩ else coordMirror ⟨i - 9, by omega⟩

/-- When time runs backwards the speeds are reversed. -/
def stateReversal (i : Fin 13) : ℝ := if i.1 < 9 then 1 else -1

/-- When time runs backwards the rates are reversed. -/
def outputReversal (i : Fin 18) : ℝ := if i.1 < 9 then 1 else -1

end BP.Spec
