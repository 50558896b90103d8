import Mathlib.Analysis.SpecialFunctions.Trigonometric.Inverse
import Mathlib.LinearAlgebra.CrossProduct
import Verif.Model.Bicycle

/-!
# Model of bicycleparameters/geometry.py
-/

namespace BP

open Real Matrix

/-- geometry.py:84-89, `(a, b, c)`.  `umath.sqrt` of a negative number raises
`ValueError`; here it is 0, theorems carry the guard. -/
noncomputable def calculateAbcGeometry (h1 h2 h3 h4 h5 d1 d2 d3 d4 d : ℝ) : ℝ × ℝ × ℝ :=
  let a := h1 + h2 - h3 + 0.5 * d1 - 0.5 * d2
  let b := h4 - 0.5 * d3 - h5 + 0.5 * d4
  let c := √(-(a - b) ^ 2 + (d + 0.5 * (d2 + d3)) ^ 2)
  (a, b, c)

/-- geometry.py:27 and 28: wheel radius from the distance `d` rolled in `n` turns. -/
noncomputable def wheelRadius (d n : ℝ) : ℝ := d / 2 / π / n

/-- geometry.py:31-44: `(lam, w, forkOffset)`.  `newton` is
`scipy.optimize.newton` (see `lambdaFromAbc`).  The reads are listed in the order
in which the code makes them. -/
noncomputable def frameGeometry (newton : (ℝ → ℝ) → ℝ → Except PyErr ℝ)
    (mp : Dict ℝ) (rF rR : ℝ) : Except PyErr (ℝ × ℝ × ℝ) :=
  let v := fun k => Dict.getD mp k 0
  if Dict.has mp "w" then
    match Dict.require mp ["gamma", "w", "f"] with
    | .error e => .error e
    | .ok () => .ok (π / 180 * (90 - v "gamma"), v "w", v "f")
  else
    match Dict.require mp ["h1", "h2", "h3", "h4", "h5", "d1", "d2", "d3", "d4", "d"] with
    | .error e => .error e
    | .ok () =>
      let (a, b, c) := calculateAbcGeometry (v "h1") (v "h2") (v "h3") (v "h4") (v "h5")
        (v "d1") (v "d2") (v "d3") (v "d4") (v "d")
      match lambdaFromAbc newton rF rR a b c with
      | .error e => .error e
      | .ok lam => .ok (lam, (a + b) * cos lam + c * sin lam, b)

/-- geometry.py:51-55: one try block copies both lateral force point keys. -/
def transferLateral (mp par : Dict ℝ) : Dict ℝ :=
  match Dict.find? mp "xcl" with
  | none => par
  | some x =>
    match Dict.find? mp "zcl" with
    | none => Dict.set par "xcl" x
    | some z => Dict.set (Dict.set par "xcl" x) "zcl" z

/-- geometry.py:10-57.  Returns the dictionary `par` after the call.
Simplifications: what remains in `par` when a read raises is not modelled;
division by zero and square roots of negative numbers are totalised. -/
noncomputable def calculateBenchmarkGeometry (newton : (ℝ → ℝ) → ℝ → Except PyErr ℝ)
    (mp par : Dict ℝ) : Except PyErr (Dict ℝ) :=
  let v := fun k => Dict.getD mp k 0
  match Dict.require mp ["dF", "nF", "dR", "nR"] with
  | .error e => .error e
  | .ok () =>
    let rF := wheelRadius (v "dF") (v "nF")
    let rR := wheelRadius (v "dR") (v "nR")
    match frameGeometry newton mp rF rR with
    | .error e => .error e
    | .ok (lam, w, fo) =>
      let par := Dict.set (Dict.set par "rF" rF) "rR" rR
      let par := Dict.set (Dict.set par "lam" lam) "w" w
      let par := Dict.set par "c" (trail rF lam fo).1
      .ok (transferLateral mp par)

/-- geometry.py:124-130, `(l1, l2)`.  `umath.asin` outside [-1, 1] raises
`ValueError`. -/
noncomputable def calculateL1L2 (h6 h7 d5 d6 l : ℝ) : Except PyErr (ℝ × ℝ) :=
  let r5 := d5 / 2
  let r6 := d6 / 2
  let l1 := h7 - h6 + r5 - r6
  let l0 := l - r5 - r6
  if l0 = 0 then .error .zeroDivision
  else if l1 / l0 < -1 ∨ 1 < l1 / l0 then .error .valueError
  else
    let gamma := arcsin (l1 / l0)
    .ok (l1, l0 * cos gamma)

/-- geometry.py:156-159, `(theta1, theta2)`.  `np.arccos`/`np.arcsin` give nan
outside [-1, 1]; theorems carry the guard. -/
noncomputable def calcTwoLinkAngles (L1 L2 D : ℝ) : ℝ × ℝ :=
  let theta1 := arccos ((L1 ^ 2 + D ^ 2 - L2 ^ 2) / (2 * L1 * D))
  let theta2 := theta1 + arcsin (L1 / L2 * sin theta1)
  (theta1, theta2)

/-- geometry.py:180-182, `(u1, u2)`; a zero tilt raises `ZeroDivisionError`. -/
noncomputable def fwheelToHandlebarRef (lam l1 l2 : ℝ) : Except PyErr (ℝ × ℝ) :=
  let u1 := l2 * sin lam - l1 * cos lam
  if sin lam = 0 then .error .zeroDivision
  else .ok (u1, u1 / tan lam + l1 / sin lam)

/-- geometry.py:200-214: the four points `(x[i], z[i])`. -/
noncomputable def fundamentalGeometryPlotData (w c lam rR rF : ℝ) : List (ℝ × ℝ) :=
  let d1 := cos lam * (c + w - rR * tan lam)
  let d3 := -cos lam * (c - rF * tan lam)
  [(0, -rR), (d1 * cos lam, -rR - d1 * sin lam), (w - d3 * cos lam, -rF + d3 * sin lam), (w, -rF)]

/-- geometry.py:271-272 -/
noncomputable def norm3 (v : Fin 3 → ℝ) : ℝ := √(v ⬝ᵥ v)

/-- geometry.py:267-276; the two points are given as two vectors (the columns). -/
noncomputable def pointToLineDistance (point x1 x2 : Fin 3 → ℝ) : ℝ :=
  norm3 ((point - x1) ⨯₃ (point - x2)) / norm3 (x2 - x1)

/-- geometry.py:238-246. -/
noncomputable def distanceToSteerAxis (w c lam : ℝ) (point : Fin 3 → ℝ) : ℝ :=
  let p1 : Fin 3 → ℝ := ![w + c, 0, 0]
  pointToLineDistance point p1 (p1 + ![-sin lam, 0, -cos lam])

/-- geometry.py:295-299. -/
noncomputable def projectPointOnLine (line point : ℝ × ℝ) : ℝ × ℝ :=
  let (m, b) := line
  let (c, d) := point
  ((m * d + c - m * b) / (m ^ 2 + 1), (m ^ 2 * d + m * c + b) / (m ^ 2 + 1))

/-- geometry.py:318-319. -/
noncomputable def vecAngle (v1 v2 : Fin 3 → ℝ) : ℝ :=
  arccos ((v1 ⬝ᵥ v2) / (norm3 v1 * norm3 v2))

/-- The `direction` argument of `vec_project`: a Python `int` or an array. (geometry.py:322-349) -/
inductive Direction where
  | int (i : ℤ)
  | array (d : Fin 3 → ℝ)

/-- Python index normalisation for a length 3 array. (geometry.py:322-349) -/
def pyIndex3 (i : ℤ) : Option (Fin 3) :=
  if i = 0 ∨ i = -3 then some 0
  else if i = 1 ∨ i = -2 then some 1
  else if i = 2 ∨ i = -1 then some 2
  else none

/-- geometry.py:342-349.  `np.array` is a function, so `type(direction) ==
np.array` is never true and `unitdir` stays unbound for arrays.  Line 348
subtracts the scalar `np.dot(vec, unitdir)` from every component. -/
noncomputable def vecProject (vec : Fin 3 → ℝ) (direction : Direction) :
    Except PyErr (Fin 3 → ℝ) :=
  match direction with
  | .int i =>
    match pyIndex3 i with
    | none => .error .indexError
    | some k =>
      let unitdir : Fin 3 → ℝ := Pi.single k 1
      .ok (fun j => vec j - vec ⬝ᵥ unitdir)
  | .array _ => .error .unboundLocal

end BP
