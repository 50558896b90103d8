import Mathlib.Data.List.Sort
import Verif.Model.Main
import Verif.Model.App
import Verif.Model.ModelMethods

/-!
# main.py and models.py: eigenvalues of a Bicycle, its plots, the plots of simulations

`numpy.linalg.eig` is a parameter.  Figures are represented by the data of their curves;
colours, axes, titles and legends (other than the labels of curves) are left out.
-/

namespace BP

open Matrix

/-! ## Bicycle.eig, main.py:1158-1199 -/

/-- The argument `speeds`: an instance of `float`, a number that is none (an `int`), or a
sequence of numbers. (main.py:1158-1199) -/
inductive Speeds where
  | float (v : ℝ)
  | int (v : ℤ)
  | seq (vs : List ℝ)

/-- main.py:1181-1184: the speeds as an array; an `int` becomes an array without axes, of which
line 1190 reads `shape[0]`. -/
def Speeds.array : Speeds → Except PyErr (List ℝ)
  | .float v => .ok [v]
  | .int _ => .error .indexError
  | .seq vs => .ok vs

/-- main.py:1186-1199 on nominal values: one pair of eigenvalues and eigenvectors for each
speed.  `io.remove_uncertainties` makes a new dictionary, so that the object does not change. -/
noncomputable def bikeEig (eig : Eig 4) (params : Dict (Dict ℝ)) (speeds : Speeds) :
    Except PyErr (List (EigPair 4)) :=
  (params.get "Benchmark").bind fun par =>
    (benchmarkParToCanonical par).2.bind fun m =>
      speeds.array.bind fun vs =>
        vs.mapM fun v => ((benchmarkParToCanonical par).1.get "g").map fun g =>
          eig (abA m.M m.C1 m.K0 m.K2 v g)

/-! ## plot_eigenvalues_vs_speed, main.py:1201-1338 -/

/-- A curve: its label and the ordinates. (main.py:1201-1338) -/
structure Curve where
  label : String
  ys : List ℝ

/-- `np.sort`. (main.py:1240, 1345) -/
noncomputable def npSort (vs : List ℝ) : List ℝ := vs.insertionSort (· ≤ ·)

/-- main.py:1241, 1267: the eigenvalues at the sorted speeds, as `sort_modes` reads them. -/
noncomputable def speedRows (eig : Eig 4) (params : Dict (Dict ℝ)) (speeds : List ℝ) :
    Except PyErr (List (EigRow (Fin 4 → ℂ))) :=
  (bikeEig eig params (.seq (npSort speeds))).map fun es => es.map eigRow

/-- main.py:1289-1290: the largest real part of each row. -/
noncomputable def largestCurve (rows : List (EigRow (Fin 4 → ℂ))) : List ℝ :=
  rows.map fun r => listMax (r.evals.map Complex.re)

/-- main.py:1272-1287: the labels. -/
def speedLegend (generic : Bool) (name : String) : List String :=
  if generic then ["_nolegend_", "_nolegend_", "_nolegend_", "_nolegend_", "_nolegend_", name]
  else ["Imaginary Weave", "Imaginary Capsize", "Imaginary Caster", "Real Weave", "Real Capsize",
    "Real Caster"]

/-- main.py:1299-1321: the curves of the three kinds of modes; the weave has two columns, which
share a label. -/
noncomputable def modeCurves (legend : List String) (rows : List (EigRow (Fin 4 → ℂ))) : List Curve :=
  let s := sortModes rows
  let label := fun i : ℕ => legend.getD i ""
  [⟨label 0, s.1.map fun e => |(e.1.getD 0 0).im|⟩,
   ⟨label 0, s.1.map fun e => |(e.1.getD 1 0).im|⟩,
   ⟨label 1, s.2.1.map fun e => |e.1.im|⟩,
   ⟨label 2, s.2.2.map fun e => |e.1.im|⟩,
   ⟨label 3, s.1.map fun e => (e.1.getD 0 0).re⟩,
   ⟨label 3, s.1.map fun e => (e.1.getD 1 0).re⟩,
   ⟨label 4, s.2.1.map fun e => e.1.re⟩,
   ⟨label 5, s.2.2.map fun e => e.1.re⟩]

/-- main.py:1240-1338: the abscissae and the curves, without the line of zeros.  `largest`
implies `generic`, so that the label of the only curve is the bicycle's name.  Without speeds
`np.min(maxEval)` raises `ValueError`, `evals[0]` in `sort_modes` `IndexError`. -/
noncomputable def plotEigenvaluesVsSpeed (eig : Eig 4) (params : Dict (Dict ℝ)) (name : String)
    (generic largest : Bool) (speeds : List ℝ) : Except PyErr (List ℝ × List Curve) :=
  (speedRows eig params speeds).bind fun rows =>
    if rows = [] then .error (if largest then .valueError else .indexError)
    else .ok (npSort speeds,
      if largest then [⟨name, largestCurve rows⟩] else modeCurves (speedLegend generic name) rows)

/-! ## The figure of the app, main.py:1340-1445 -/

open Classical in
/-- `speeds[np.real(x) < 0]`. (main.py:1201-1338) -/
noncomputable def dampedSpeeds (speeds re : List ℝ) : List ℝ :=
  ((speeds.zip re).filter fun e => decide (e.2 < 0)).map Prod.fst

/-- `min` of a non-empty list (0 for the empty list). (main.py:1201-1338) -/
noncomputable def listMin : List ℝ → ℝ
  | [] => 0
  | [x] => x
  | x :: y :: l => min x (listMin (y :: l))

open Classical in
/-- main.py:1402-1430: the shaded range, `none` with the annotation that there is none.  `min`
of an empty array raises `ValueError`; `min(..., default="EMPTY")` returns a text, which `max`
cannot compare (`TypeError`).  The bare `except` catches both, and line 1416 then reads
`v_start_stab`, which was not assigned. -/
noncomputable def stabilityRegion (speeds wea1 wea2 cap cas : List ℝ) :
    Except PyErr (Option (ℝ × ℝ)) :=
  let d := [wea2, cas, cap, wea1].map (dampedSpeeds speeds)
  if d.any (· = []) then .error .unboundLocal
  else
    let start := listMax (d.map listMin)
    let stop := listMin (d.map listMax)
    if stop < start then .ok none
    else if stop - start < 0.0001 then .ok none
    else .ok (some (start, stop))

/-- What is drawn: the abscissae, the curves and the shaded range (`none`: not asked for,
`some none`: the annotation that there is none). (main.py:1201-1338) -/
structure SpeedFigure where
  speeds : List ℝ
  curves : List Curve
  region : Option (Option (ℝ × ℝ))

/-- main.py:1362-1400: the eight traces. -/
noncomputable def speedTraces (rows : List (EigRow (Fin 4 → ℂ))) : List Curve :=
  let s := sortModes rows
  [⟨"Re Weave", s.1.map fun e => (e.1.getD 0 0).re⟩,
   ⟨"Re Weave", s.1.map fun e => (e.1.getD 1 0).re⟩,
   ⟨"Re Capsize", s.2.1.map fun e => e.1.re⟩,
   ⟨"Re Castering", s.2.2.map fun e => e.1.re⟩,
   ⟨"Im Weave", s.1.map fun e => |(e.1.getD 0 0).im|⟩,
   ⟨"Im Weave", s.1.map fun e => |(e.1.getD 1 0).im|⟩,
   ⟨"Im Capsize", s.2.1.map fun e => |e.1.im|⟩,
   ⟨"Im Castering", s.2.2.map fun e => |e.1.im|⟩]

/-- main.py:1340-1445 with `largest=False`.  `evals` is not assigned when a figure is given
(`ownFigure`).  `largest=True` is not modelled. -/
noncomputable def plotSpeedFigure (eig : Eig 4) (params : Dict (Dict ℝ)) (ownFigure stability : Bool)
    (speeds : List ℝ) : Except PyErr SpeedFigure :=
  if ownFigure then .error .unboundLocal
  else (speedRows eig params speeds).bind fun rows =>
    if rows = [] then .error .indexError
    else
      let s := sortModes rows
      let vs := npSort speeds
      if stability then
        (stabilityRegion vs (s.1.map fun e => (e.1.getD 0 0).re) (s.1.map fun e => (e.1.getD 1 0).re)
          (s.2.1.map fun e => e.1.re) (s.2.2.map fun e => e.1.re)).map fun r =>
            ⟨vs, speedTraces rows, some r⟩
      else .ok ⟨vs, speedTraces rows, none⟩

/-! ## plot_bode, main.py:1447-1489 -/

/-- A system with one input and one output: `(A, B, C, D)`. (main.py:1447-1489) -/
structure Siso where
  A : Matrix (Fin 4) (Fin 4) ℝ
  B : Fin 4 → ℝ
  C : Fin 4 → ℝ
  D : ℝ

/-- main.py:1474-1487: the bicycle's parameter sets after the call and the system of which the
external function `control.bode` draws the frequency response.  Indices out of range are not
modelled. -/
noncomputable def bodeSystem (params : Dict (Dict ℝ)) (speed : ℝ) (u : Fin 2) (y : Fin 4) :
    Dict (Dict ℝ) × Except PyErr Siso :=
  let r := bikeStateSpace params speed .yes
  (r.1, r.2.map fun ab =>
    ⟨ab.1, fun i => ab.2 i u, (1 : Matrix (Fin 4) (Fin 4) ℝ) y, (0 : Matrix (Fin 4) (Fin 2) ℝ) y u⟩)

/-! ## Plots of simulations -/

/-- A curve in one of the panels of a figure. (models.py:473-553, 980-1039) -/
structure PanelCurve where
  panel : ℕ
  label : String
  ys : List ℝ

/-- models.py:618 -/
def whippleUnits : List String := ["rad", "rad", "rad/s", "rad/s"]

/-- models.py:620 -/
def whippleLatex : List String := ["\\phi", "\\delta", "\\dot{\\phi}", "\\dot{\\delta}"]

/-- models.py:1273-1274: eleven units. -/
def leanUnits : List String :=
  ["m", "m", "rad", "rad", "rad", "rad", "rad", "rad", "rad/s", "rad/s", "rad/s"]

/-- models.py:1276-1277: twelve names. -/
def leanLatex : List String :=
  ["q_1", "q_2", "q_3", "q_4", "q_6", "q_7", "q_8", "q_9", "u_4", "u_6", "u_7", "u_9"]

/-- `'$' + s + '$'` (models.py:473-553, 980-1039) -/
def dollars (s : String) : String := "$" ++ s ++ "$"

/-- `sorted(list(set(units)))`, models.py:512. -/
def uniqueUnits (units : List String) : List String := units.dedup.insertionSort (· ≤ ·)

/-- models.py:532-533: `'rad' in unit` for the units that occur. -/
def hasRad (unit : String) : Bool := unit == "rad" || unit == "rad/s"

/-- models.py:530-535: the curves of one mode; `zip` stops with the shortest of its
arguments. -/
noncomputable def modePanel {m : ℕ} (units names : List String) (res : List (Fin m → ℝ)) :
    List PanelCurve :=
  (((List.finRange m).zip units).zip names).map fun e =>
    ⟨(uniqueUnits units).idxOf e.1.2, dollars e.2,
      res.map fun x => if hasRad e.1.2 then rad2deg (x e.1.1) else x e.1.1⟩

open Classical in
/-- models.py:514-519: whether a mode is drawn; `tol` is none without `hide_zeros`. -/
noncomputable def modeShown (tol : Option ℝ) (ev : ℂ) : Bool :=
  match tol with
  | none => true
  | some tol => !decide (‖ev‖ < tol)

/-- models.py:509-553: for each row of panels the eigenvalue in the title and the curves.
`plt.subplots(0, ...)` raises `ValueError`; with a single row the array of axes has one index
only, and `axes[i, j]` raises `IndexError` (there are at least two units). -/
noncomputable def plotModeSimulations {m k : ℕ} (units names : List String) (form : Form m k)
    (eig : Eig m) (solve : Solver m) (tol : Option ℝ) (times : List ℝ) (s : ℕ) (ov : Dict OVal) :
    HM (List (ℂ × List PanelCurve)) := do
  let results ← simulateModes form eig solve times s ov
  let e ← calcEigen form eig false s ov
  let e ← HM.ofExcept e.asOne
  let rows := (results.zip (List.ofFn e.1)).filter fun r => modeShown tol r.2
  match rows with
  | [] => HM.raise .valueError
  | [_] => HM.raise .indexError
  | _ => HM.pure (rows.map fun r => (r.2, modePanel units names r.1))

/-- The column `i` of `np.rad2deg(res)`. (models.py:473-553, 980-1039) -/
noncomputable def degColumn {m : ℕ} (res : List (Fin m → ℝ)) (i : Fin m) : List ℝ :=
  res.map fun x => rad2deg (x i)

/-- models.py:1020-1039: the inputs, the angles and the angular rates. -/
noncomputable def whippleSimulationCurves (res : List (Fin 4 → ℝ)) (inputs : List (Fin 2 → ℝ)) :
    List PanelCurve :=
  [⟨0, "$T_\\phi$", inputs.map fun r => r 0⟩, ⟨0, "$T_\\delta$", inputs.map fun r => r 1⟩] ++
  ((([0, 1] : List (Fin 4)).zip (whippleLatex.take 2)).map fun e =>
    ⟨1, dollars e.2, degColumn res e.1⟩) ++
  ((([2, 3] : List (Fin 4)).zip (whippleLatex.drop 2)).map fun e =>
    ⟨2, dollars e.2, degColumn res e.1⟩)

/-- models.py:1020-1022 -/
noncomputable def whipplePlotSimulation (form : Form 4 2) (solve : Solver 4) (times x0 : List ℝ)
    (f : Option (ℝ → (Fin 4 → ℝ) → Fin 2 → ℝ)) (s : ℕ) (ov : Dict OVal) : HM (List PanelCurve) := do
  let r ← simulate form solve times x0 f s ov
  HM.pure (whippleSimulationCurves r.1 r.2)

/-- models.py:1524, 1532, 1540, 1553: `idxs` and `labs` of one panel. -/
noncomputable def labelled (panel : ℕ) (idxs : List (Fin 12)) (res : List (Fin 12 → ℝ)) :
    List PanelCurve :=
  idxs.map fun i : Fin 12 => ⟨panel, dollars (leanLatex.getD i.val ""), degColumn res i⟩

/-- models.py:1521-1569: the curves; yaw and wheel speed are drawn on the second axis of panels
3 and 4, with their name as its label. -/
noncomputable def leanSimulationCurves (res : List (Fin 12 → ℝ)) (inputs : List (Fin 3 → ℝ)) :
    List PanelCurve :=
  [⟨0, "$T_4$", inputs.map fun r => r 0⟩, ⟨0, "$T_7$", inputs.map fun r => r 1⟩,
    ⟨0, "$T_9$", inputs.map fun r => r 2⟩] ++
  [⟨1, "$q_1$", res.map fun x => x 0⟩, ⟨1, "$q_2$", res.map fun x => x 1⟩] ++
  labelled 2 [4, 6] res ++ labelled 3 [3, 5, 7] res ++
  [⟨3, "$q_3$", degColumn res 2⟩] ++ labelled 4 [8, 10, 11] res ++ [⟨4, "$u_6$", degColumn res 9⟩]

/-- models.py:1513-1569: the curves, and the caller's `initial_conditions` afterwards; as
`simulate` does, the method assigns entry 9 first (see `riderLeanSimulate`). -/
noncomputable def leanPlotSimulation (form : Form 12 3) (solve : Solver 12) (times x0 : List ℝ)
    (f : Option (ℝ → (Fin 12 → ℝ) → Fin 3 → ℝ)) (s : ℕ) (ov : Dict OVal) (h : Heap) :
    (Except PyErr (List PanelCurve) × Heap) × List ℝ :=
  match parseOverrides s ov h with
  | (.error e, h') => ((.error e, h'), x0)
  | (.ok p, h') =>
    match (h'.getD p.par []).get "v", (h'.getD p.par []).get "rr" with
    | .ok (.num v), .ok (.num rr) =>
      if 9 < x0.length then
        let r := riderLeanSimulate form solve times (x0.set 9 (-v.val / rr.val)) f s ov h'
        ((r.1.1.map fun y => leanSimulationCurves y.1 y.2, r.1.2), r.2)
      else ((.error .indexError, h'), x0)
    | .error e, _ => ((.error e, h'), x0)
    | .ok _, .error e => ((.error e, h'), x0)
    | .ok _, .ok _ => ((.error .valueError, h'), x0)

end BP
