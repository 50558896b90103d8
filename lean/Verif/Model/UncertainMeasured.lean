import Mathlib.Analysis.SpecialFunctions.Trigonometric.Inverse
import Verif.Model.Uncertain

/-!
# calculate_benchmark_from_measured with uncertainties

The functions of Model/Inertia.lean, Model/Geometry.lean and Model/Main.lean that compute the
benchmark parameters from the measurements, for any kind of number (`PyNumT`); for real numbers
they are those functions.  A measurement without uncertainty is a number whose linear part is 0.
-/

namespace BP

open Matrix

/-- The numbers of `PyNum` with the two functions of `umath` used here and the value that
comparisons and numpy's singularity test look at. (main.py:1551-1712) -/
class PyNumT (R : Type) extends PyNum R where
  tan : R → R
  asin : R → R
  val : R → ℝ

/-- Floats, as real numbers (main.py:1551-1712). -/
noncomputable instance : PyNumT ℝ where
  tan := Real.tan
  asin := Real.arcsin
  val := id

/-- `umath.tan` and `umath.asin` (external, first-order propagation). (main.py:1551-1712) -/
noncomputable instance {ι : Type} : PyNumT (UNum ι) where
  tan u := UNum.chain (Real.tan u.nom) (1 / Real.cos u.nom ^ 2) u
  asin u := UNum.chain (Real.arcsin u.nom) (1 / √(1 - u.nom ^ 2)) u
  val u := u.nom

variable {R : Type} [PyNumT R]

/-- The sum of the entries of an array. (main.py:1551-1712) -/
def sumN (l : List R) : R := l.foldr (· + ·) (PyNum.lit 0)

/-! ## geometry.py and com.py -/

open Classical in
/-- geometry.py:124-130, see `calculateL1L2`. -/
noncomputable def calculateL1L2N (h6 h7 d5 d6 l : R) : Except PyErr (R × R) :=
  let r5 := d5 / PyNum.lit 2
  let r6 := d6 / PyNum.lit 2
  let l1 := h7 - h6 + r5 - r6
  let l0 := l - r5 - r6
  if PyNumT.val l0 = 0 then .error .zeroDivision
  else if PyNumT.val (l1 / l0) < -1 ∨ 1 < PyNumT.val (l1 / l0) then .error .valueError
  else
    let gamma := PyNumT.asin (l1 / l0)
    .ok (l1, l0 * PyNum.cos gamma)

open Classical in
/-- geometry.py:180-182, see `fwheelToHandlebarRef`. -/
noncomputable def fwheelToHandlebarRefN (lam l1 l2 : R) : Except PyErr (R × R) :=
  let u1 := l2 * PyNum.sin lam - l1 * PyNum.cos lam
  if PyNumT.val (PyNum.sin lam) = 0 then .error .zeroDivision
  else .ok (u1, u1 / PyNumT.tan lam + l1 / PyNum.sin lam)

/-- com.py:93-96, see `lineIntersection`. -/
def lineIntersectionN (l1 l2 : R × R) : R × R :=
  let i := invN !![-l1.1, PyNum.lit 1; -l2.1, PyNum.lit 1]
  (i 0 0 * l1.2 + i 0 1 * l2.2, i 1 0 * l1.2 + i 1 1 * l2.2)

open Classical in
/-- com.py:80-99, see `centerOfMass`. -/
noncomputable def centerOfMassN (lines : List (R × R)) : Except PyErr (R × R) :=
  match indexPairs lines.length with
  | .error e => .error e
  | .ok comb =>
    let o := (PyNum.lit 0 : R)
    let pairs := comb.map fun row =>
      (lines.getD (row.getD 0 0) (o, o), lines.getD (row.getD 1 0) (o, o))
    if ∃ q ∈ pairs, PyNumT.val q.1.1 = PyNumT.val q.2.1 then .error .linAlgError
    else if pairs.length = 0 then .error .zeroDivision
    else
      let lineX := pairs.map fun q => lineIntersectionN q.1 q.2
      .ok (sumN (lineX.map Prod.fst) / PyNum.lit lineX.length,
        sumN (lineX.map Prod.snd) / PyNum.lit lineX.length)

/-- com.py:140-161, see `comLine`. -/
noncomputable def comLineN (alpha a lam rR rF w : R) (part : String) (l1 l2 : R) :
    Except PyErr (R × R × R) :=
  let beta := lam - alpha * PyNum.lit Real.pi / PyNum.lit 180
  let m := -PyNumT.tan beta
  if part = "B" then .ok (m, -a / PyNum.cos beta - rR, beta)
  else if part = "S" ∨ part = "H" then
    .ok (m, -a / PyNum.cos beta - rF + w * PyNumT.tan beta, beta)
  else if part = "G" then
    match fwheelToHandlebarRefN lam l1 l2 with
    | .error e => .error e
    | .ok (u1, u2) =>
      .ok (m, -a / PyNum.cos beta - (rF + u2) + (w - u1) * PyNumT.tan beta, beta)
  else .error (.keyError "")

/-- com.py:207-210, see `comLineStep`. -/
noncomputable def comLineStepN (par mp : Dict R) (l1 l2 : R) (acc : Dict (List (R × R × R)))
    (key : String) : Except PyErr (Dict (List (R × R × R))) :=
  let o := (PyNum.lit 0 : R)
  let rest := String.ofList (key.toList.drop 5)
  match Dict.require mp [key, "a" ++ rest] with
  | .error e => .error e
  | .ok () =>
    match key.toList[5]? with
    | none => .error .indexError
    | some ch =>
      let part := String.ofList [ch]
      match comLineN (Dict.getD mp key o) (Dict.getD mp ("a" ++ rest) o) (Dict.getD par "lam" o)
          (Dict.getD par "rR" o) (Dict.getD par "rF" o) (Dict.getD par "w" o) part l1 l2 with
      | .error e => .error e
      | .ok t =>
        match Dict.find? acc part with
        | none => .error (.keyError part)
        | some l => .ok (Dict.set acc part (l ++ [t]))

/-- com.py:199-200, see `alphaKeys`. -/
def alphaKeysN {V : Type} (mp : Dict V) : List String :=
  ((Dict.keys mp).filter fun k => "alpha".toList.isPrefixOf k.toList).insertionSort (· ≤ ·)

/-- com.py:198-212, see `partComLines`. -/
noncomputable def partComLinesN (mp par : Dict R) (forkIsSplit : Bool) (l1 l2 : R) :
    Except PyErr (Dict (List (R × R × R))) :=
  (alphaKeysN mp).foldlM (comLineStepN par mp l1 l2)
    ((comLineParts forkIsSplit).map fun p => (p, []))

/-! ## inertia.py -/

/-- com.py:234-237 for two bodies `(m, x, z)` in the plane of symmetry, see `totalCom`: total mass,
x and z.  The y coordinate 0 is left out. -/
def totalComN (b1 b2 : R × R × R) : R × R × R :=
  let mT := b1.1 + (b2.1 + PyNum.lit 0)
  (mT, (b1.1 * b1.2.1 + (b2.1 * b2.2.1 + PyNum.lit 0)) / mT,
    (b1.1 * b1.2.2 + (b2.1 * b2.2.2 + PyNum.lit 0)) / mT)

/-- inertia.py:89, see `compoundPendulumInertia`. -/
noncomputable def compoundPendulumInertiaN (m g l T : R) : R :=
  (T / PyNum.lit 2 / PyNum.lit Real.pi) ^ 2 * m * g * l - m * l ^ 2

/-- inertia.py:115-117, see `betaMat`. -/
def betaMatN {n : ℕ} (beta : Fin n → R) : Matrix (Fin n) (Fin 3) R :=
  fun i => ![PyNum.cos (beta i) ^ 2, PyNum.lit (-2) * PyNum.sin (beta i) * PyNum.cos (beta i),
    PyNum.sin (beta i) ^ 2]

/-- `.I` of a `unumpy.matrix` with three columns: a parameter. (com.py:61-100, inertia.py:94-120) -/
abbrev MatInv (R : Type) := ∀ n, Matrix (Fin n) (Fin 3) R → Matrix (Fin 3) (Fin n) R

/-- inertia.py:115-119, see `inertiaComponents`. -/
def inertiaComponentsN {n : ℕ} (matInv : MatInv R) (jay beta : Fin n → R) : Fin 3 → R :=
  fun k => sumN ((List.finRange n).map fun i => matInv n (betaMatN beta) k i * jay i)

/-- inertia.py:245, see `torInertia`. -/
noncomputable def torInertiaN (k T : R) : R := k * T ^ 2 / PyNum.lit 4 / PyNum.lit (Real.pi ^ 2)

/-- inertia.py:264, see `torsionalPendulumStiffness`. -/
noncomputable def torsionalPendulumStiffnessN (I T : R) : R :=
  PyNum.lit 4 * I * PyNum.lit (Real.pi ^ 2) / T ^ 2

/-- inertia.py:293-295 with `ri = 0`, the moment about a normal axis, see `tubeInertia`. -/
noncomputable def tubeInertiaN (l m ro : R) : R :=
  m / PyNum.lit 12 * (PyNum.lit 3 * ro ^ 2 + PyNum.lit (3 * 0 ^ 2) + l ^ 2)

/-! ## main.py:1574-1711 -/

/-- main.py:1595-1597, see `centreStep`. -/
noncomputable def centreStepN (par : Dict R) (pl : String × List (R × R × R)) :
    Except PyErr (Dict R) :=
  match centerOfMassN (pl.2.map fun t => (t.1, t.2.1)) with
  | .error e => .error e
  | .ok (x, z) => .ok (Dict.set (Dict.set par ("x" ++ pl.1) x) ("z" ++ pl.1) z)

/-- main.py:1595-1597, see `setCentres`. -/
noncomputable def setCentresN (lines : Dict (List (R × R × R))) (par : Dict R) :
    Except PyErr (Dict R) :=
  lines.foldlM centreStepN par

/-- main.py:1668-1682, see `inPlaneStep`. -/
noncomputable def inPlaneStepN (matInv : MatInv R) (mp : Dict R) (torStiff : R) (par : Dict R)
    (pl : String × List (R × R × R)) : Except PyErr (Dict R) :=
  let n := pl.2.length
  match Dict.require mp ((List.range n).map (ttKey pl.1)) with
  | .error e => .error e
  | .ok () =>
    let pen : Fin n → R := fun i => torInertiaN torStiff (Dict.getD mp (ttKey pl.1 i) (PyNum.lit 0))
    let beta : Fin n → R := fun i => (pl.2[i]).2.2
    let inert := inertiaComponentsN matInv pen beta
    .ok (Dict.set (Dict.set (Dict.set par ("I" ++ pl.1 ++ "xx") (inert 0))
      ("I" ++ pl.1 ++ "xz") (inert 1)) ("I" ++ pl.1 ++ "zz") (inert 2))

/-- main.py:1668-1682, see `setInPlane`. -/
noncomputable def setInPlaneN (matInv : MatInv R) (mp : Dict R) (torStiff : R)
    (lines : Dict (List (R × R × R))) (par : Dict R) : Except PyErr (Dict R) :=
  lines.foldlM (inPlaneStepN matInv mp torStiff) par

/-- main.py:1574-1589, see `setMasses`. -/
def setMassesN (mp : Dict R) (split : Bool) (par : Dict R) : Except PyErr (Dict R) :=
  let v := fun k => Dict.getD mp k (PyNum.lit 0)
  match Dict.require mp (["mB", "mF", "mR"] ++ (if split then ["mS", "mG"] else ["mH"])) with
  | .error e => .error e
  | .ok () =>
    let par := Dict.set (Dict.set (Dict.set par "mB" (v "mB")) "mF" (v "mF")) "mR" (v "mR")
    let par := if Dict.has mp "mD" then Dict.set par "mD" (v "mD" - v "mF") else par
    .ok (if split then Dict.set (Dict.set par "mS" (v "mS")) "mG" (v "mG")
      else Dict.set par "mH" (v "mH"))

/-- main.py:1599-1609, see `setSplitCentre`. -/
def setSplitCentreN (par : Dict R) : Dict R :=
  let v := fun k => Dict.getD par k (PyNum.lit 0)
  let t := totalComN (v "mS", v "xS", v "zS") (v "mG", v "xG", v "zG")
  Dict.set (Dict.set (Dict.set par "mH" t.1) "xH" t.2.1) "zH" t.2.2

/-- main.py:1611-1650, see `setYInertias`. -/
noncomputable def setYInertiasN (mp : Dict R) (split : Bool) (u1 u2 : R) (par : Dict R) :
    Except PyErr (Dict R) :=
  let v := fun k => Dict.getD mp k (PyNum.lit 0)
  let q := fun k => Dict.getD par k (PyNum.lit 0)
  match Dict.require mp (["g", "mF", "lF", "TcF1", "mR", "lR", "TcR1", "mB", "TcB1"] ++
      (if split then ["mS", "TcS1", "mG", "TcG1"] else ["mH", "TcH1"])) with
  | .error e => .error e
  | .ok () =>
    let par := Dict.set par "g" (v "g")
    let IFyy := compoundPendulumInertiaN (v "mF") (v "g") (v "lF") (v "TcF1")
    let par := Dict.set par "IFyy" IFyy
    let par := Dict.set par "IRyy" (compoundPendulumInertiaN (v "mR") (v "g") (v "lR") (v "TcR1"))
    let par := if Dict.has mp "mD" && Dict.has mp "TcD1" then
        Dict.set par "IDyy" (compoundPendulumInertiaN (v "mD") (v "g") (v "lF") (v "TcD1") - IFyy)
      else par
    let lB := PyNum.sqrt (q "xB" ^ 2 + (q "zB" + q "rR") ^ 2)
    let par := Dict.set par "IByy" (compoundPendulumInertiaN (v "mB") (v "g") lB (v "TcB1"))
    if split then
      let lS := PyNum.sqrt ((q "xS" - q "w") ^ 2 + (q "zS" + q "rF") ^ 2)
      let par := Dict.set par "ISyy" (compoundPendulumInertiaN (v "mS") (v "g") lS (v "TcS1"))
      let lG := PyNum.sqrt ((q "xG" - q "w" + u1) ^ 2 + (q "zG" + q "rF" + u2) ^ 2)
      .ok (Dict.set par "IGyy" (compoundPendulumInertiaN (v "mG") (v "g") lG (v "TcG1")))
    else
      let lH := PyNum.sqrt ((q "xH" - q "w") ^ 2 + (q "zH" + q "rF") ^ 2)
      .ok (Dict.set par "IHyy" (compoundPendulumInertiaN (v "mH") (v "g") lH (v "TcH1")))

/-- main.py:1652-1655, see `torsionStiffness`. -/
noncomputable def torsionStiffnessN (mp : Dict R) : Except PyErr R :=
  let v := fun k => Dict.getD mp k (PyNum.lit 0)
  match Dict.require mp ["lP", "mP", "dP", "TtP1"] with
  | .error e => .error e
  | .ok () =>
    .ok (torsionalPendulumStiffnessN (tubeInertiaN (v "lP") (v "mP") (v "dP" / PyNum.lit 2))
      (v "TtP1"))

/-- main.py:1657-1663, see `setWheelInertias`. -/
noncomputable def setWheelInertiasN (mp : Dict R) (torStiff : R) (par : Dict R) :
    Except PyErr (Dict R) :=
  let v := fun k => Dict.getD mp k (PyNum.lit 0)
  match Dict.require mp ["TtF1", "TtR1"] with
  | .error e => .error e
  | .ok () =>
    let IFxx := torInertiaN torStiff (v "TtF1")
    let par := Dict.set (Dict.set par "IFxx" IFxx) "IRxx" (torInertiaN torStiff (v "TtR1"))
    .ok (if Dict.has mp "TtD1" then Dict.set par "IDxx" (torInertiaN torStiff (v "TtD1") - IFxx)
      else par)

/-- main.py:1684-1703 with `part_inertia_tensor` (inertia.py:175-194) and `parallel_axis`
(inertia.py:142-149) for parts in the plane of symmetry, see `setSplitInertia`. -/
def setSplitInertiaN (par : Dict R) : Except PyErr (Dict R) :=
  let q := fun k => Dict.getD par k (PyNum.lit 0)
  match Dict.require par ["IBxx", "IGxx", "IGxz", "IGyy", "IGzz"],
      Dict.require par ["IBxx", "ISxx", "ISxz", "ISyy", "ISzz"] with
  | .ok (), .ok () =>
    let t := totalComN (q "mG", q "xG", q "zG") (q "mS", q "xS", q "zS")
    let xH := t.2.1
    let zH := t.2.2
    let aG := q "xG" - xH
    let cG := q "zG" - zH
    let aS := q "xS" - xH
    let cS := q "zS" - zH
    let par := Dict.set (Dict.set (Dict.set par "mH" t.1) "xH" xH) "zH" zH
    let par := Dict.set par "IHxx"
      ((q "IGxx" + q "mG" * (PyNum.lit (0 ^ 2) + cG ^ 2)) +
        (q "ISxx" + q "mS" * (PyNum.lit (0 ^ 2) + cS ^ 2)))
    let par := Dict.set par "IHxz"
      ((q "IGxz" + q "mG" * (-aG * cG)) + (q "ISxz" + q "mS" * (-aS * cS)))
    let par := Dict.set par "IHyy"
      ((q "IGyy" + q "mG" * (cG ^ 2 + aG ^ 2)) + (q "ISyy" + q "mS" * (cS ^ 2 + aS ^ 2)))
    .ok (Dict.set par "IHzz"
      ((q "IGzz" + q "mG" * (aG ^ 2 + PyNum.lit (0 ^ 2))) +
        (q "ISzz" + q "mS" * (aS ^ 2 + PyNum.lit (0 ^ 2)))))
  | .error e, _ => .error e
  | _, .error e => .error e

/-- main.py:1639-1641 and com.py:187-188, see `splitLengths`. -/
noncomputable def splitLengthsN (mp : Dict R) (split : Bool) : Except PyErr (R × R) :=
  let v := fun k => Dict.getD mp k (PyNum.lit 0)
  if split then
    match Dict.require mp ["h6", "h7", "d5", "d6", "l"] with
    | .error e => .error e
    | .ok () => calculateL1L2N (v "h6") (v "h7") (v "d5") (v "d6") (v "l")
  else .ok (PyNum.lit 0, PyNum.lit 0)

/-- main.py:1641, see `splitRef`. -/
noncomputable def splitRefN (par : Dict R) (split : Bool) (l1 l2 : R) : Except PyErr (R × R) :=
  if split then fwheelToHandlebarRefN (Dict.getD par "lam" (PyNum.lit 0)) l1 l2
  else .ok (PyNum.lit 0, PyNum.lit 0)

/-- main.py:1574-1711: everything after the geometry. -/
noncomputable def benchmarkAfterGeometry (matInv : MatInv R) (mp par : Dict R) :
    Except PyErr (Dict R × Dict (List (R × R × R))) := do
  let split := isForkSplit mp
  let par ← setMassesN mp split par
  let (l1, l2) ← splitLengthsN mp split
  let lines ← partComLinesN mp par split l1 l2
  let par ← setCentresN lines par
  let par := if split then setSplitCentreN par else par
  let (u1, u2) ← splitRefN par split l1 l2
  let par ← setYInertiasN mp split u1 u2 par
  let torStiff ← torsionStiffnessN mp
  let par ← setWheelInertiasN mp torStiff par
  let par ← setInPlaneN matInv mp torStiff lines par
  let par ← if split then setSplitInertiaN par else .ok par
  .ok (par, lines)

/-- main.py:1551-1711 for measurements some of which have uncertainties, see `calculateBenchmark`.
The steer axis tilt may be a new independent variable (`lambdaFromAbcU`).  Simplification: an array
of zeros of dtype float64 that is filled with uncertain numbers raises `TypeError`
(inertia.py:175-194); this cannot happen if the torsional stiffness is uncertain. -/
noncomputable def calculateBenchmarkU {ι : Type} [Fintype ι] (newton : (ℝ → ℝ) → ℝ → Except PyErr ℝ)
    (matInv : MatInv (UNum (Option ι))) (mp : Dict (FloatOrU ι)) :
    Except PyErr (Dict (UNum (Option ι)) × Dict (List (UNum (Option ι) × UNum (Option ι) ×
      UNum (Option ι)))) := do
  let par ← calculateBenchmarkGeometryU newton mp []
  benchmarkAfterGeometry matInv (mp.map fun e => (e.1, e.2.out)) par

end BP
