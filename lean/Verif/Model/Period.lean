import Mathlib.Analysis.SpecialFunctions.Trigonometric.Basic
import Mathlib.Analysis.SpecialFunctions.Pow.Real
import Verif.Model.IO

/-!
# Model of bicycleparameters/period.py

`get_period`, `make_guess` and `average_rectified_sections` are in Model/PeriodFit, `plot_osfit` is in
Model/PeriodPlot.  `scipy.optimize.leastsq` is outside the model: the fit parameters are
arbitrary reals.
-/

namespace BP

open Real

/-- period.py:98-123: one file.  `load` gives the key and the period of a file (lines
102-116); the period is appended to the list of its key, or starts a new one. -/
def collectStep {F V : Type} (load : F → Except PyErr (String × V)) (acc : Dict (List V)) (f : F) :
    Except PyErr (Dict (List V)) :=
  match load f with
  | .error e => .error e
  | .ok (k, T) => .ok (Dict.set acc k ((Dict.find? acc k).getD [] ++ [T]))

/-- period.py:98-123: all files. -/
def collectPeriods {F V : Type} (load : F → Except PyErr (String × V)) (files : List F) :
    Except PyErr (Dict (List V)) :=
  files.foldlM (collectStep load) []

/-- period.py:126-130: every list is replaced by its mean.  All keys made by
`get_period_key` start with 'T', so the test of line 127 always holds; a key without it
would keep its list (not modelled). -/
def calcPeriodsForFiles {F V : Type} (mean : List V → V)
    (load : F → Except PyErr (String × V)) (files : List F) : Except PyErr (Dict V) :=
  match collectPeriods load files with
  | .error e => .error e
  | .ok d => .ok (d.map fun kv => (kv.1, mean kv.2))

/-- period.py:154-174: true when the periods have to be calculated again. -/
def checkForPeriod {V : Type} (mp : Dict V) (forkIsSplit : Bool) : Bool :=
  let nc := (Dict.keys mp).countP fun k => k.toList.take 2 = ['T', 'c']
  let nt := (Dict.keys mp).countP fun k => k.toList.take 2 = ['T', 't']
  if forkIsSplit then decide (nc < 5) || decide (nt < 11)
  else decide (nc < 4) || decide (nt < 8)

/-- period.py:200-204, `(rsq, SSE, SST, SSR)` for measured and predicted values.
Simplification: `SST = 0` gives nan in the code, here `rsq = 0`. -/
noncomputable def fitGoodness {n : ℕ} (ym yp : Fin n → ℝ) : ℝ × ℝ × ℝ × ℝ :=
  let mean := (∑ i, ym i) / n
  let SSR := ∑ i, (yp i - mean) ^ 2
  let SST := ∑ i, (ym i - mean) ^ 2
  (SSR / SST, SST - SSR, SST, SSR)

/-- period.py:231: the time of sample `i` for an integer sample rate
(`linspace(0, (n-1)/rate, n)`). -/
noncomputable def sampleTime (n : ℕ) (rate : ℝ) (i : ℕ) : ℝ :=
  i * (((n - 1 : ℝ) / rate) / (n - 1 : ℝ))

/-- period.py:236-242: the decaying oscillation. -/
noncomputable def fitfunc (p0 p1 p2 p3 p4 t : ℝ) : ℝ :=
  let a := p0
  let b := exp (-p3 * p4 * t)
  let c := p1 * sin (p4 * √(1 - p3 ^ 2) * t)
  let d := p2 * cos (p4 * √(1 - p3 ^ 2) * t)
  a + b * (c + d)

/-- period.py:273-282: the period (nominal value) of the fitted oscillation. -/
noncomputable def fitPeriod (zeta wo : ℝ) : ℝ :=
  let wd := √(1 - zeta ^ 2) * wo
  let fd := wd / 2 / π
  1 / fd

/-- period.py:329-345: the part subscripts; `rod` is `matData['rod']` if present. -/
def partSubscripts (forkIsSplit : Bool) (rod : Option String) : Dict String :=
  let base : Dict String := [("Fwheel", "F"), ("Rwheel", "R"), ("Frame", "B"), ("Flywheel", "D")]
  let forks := if forkIsSplit then Dict.set (Dict.set base "Fork" "S") "Handlebar" "G"
    else Dict.set base "Fork" "H"
  Dict.set forks (rod.getD "Rod") "P"

/-- period.py:348-353. -/
def ordinals : Dict String :=
  [("First", "1"), ("Second", "2"), ("Third", "3"), ("Fourth", "4"), ("Fifth", "5"), ("Sixth", "6")]

/-- period.py:358-361, with the subscripts and the orientation word found before. -/
def periodKeyFor (matData subs : Dict String) (orienWord : String) : Except PyErr String :=
  match Dict.get matData "pendulum" with
  | .error e => .error e
  | .ok pendulum =>
    match pendulum.toList with
    | [] => .error .indexError
    | ch :: _ =>
      match Dict.get matData "part" with
      | .error e => .error e
      | .ok part =>
        match Dict.get subs part with
        | .error e => .error e
        | .ok sub =>
          match Dict.get ordinals orienWord with
          | .error e => .error e
          | .ok num => .ok ("T" ++ String.ofList [ch.toLower] ++ sub ++ num)

/-- period.py:328-361 for the string entries of the pendulum data. -/
def getPeriodKey (matData : Dict String) (forkIsSplit : Bool) : Except PyErr String :=
  let subs := partSubscripts forkIsSplit (Dict.find? matData "rod")
  match Dict.find? matData "angleOrder" with
  | some w => periodKeyFor matData subs w
  | none =>
    match Dict.find? matData "angle" with
    | some w => periodKeyFor matData subs w
    | none => .error (.keyError "angle")

/-- period.py:366-370. -/
def getSampleRate {V : Type} (matData : Dict V) : Except PyErr V :=
  if Dict.has matData "ActualRate" then Dict.get matData "ActualRate"
  else Dict.get matData "sampleRate"

/-- period.py:390-402: row of the Jacobian at time `t`. -/
noncomputable def jacFitfunc (p1 p2 p3 p4 t : ℝ) : Fin 5 → ℝ :=
  let e := exp (-p3 * p4 * t)
  let dampsq := √(1 - p3 ^ 2)
  let s := sin (dampsq * p4 * t)
  let c := cos (dampsq * p4 * t)
  ![1, e * s, e * c,
    -p4 * t * e * (p1 * s + p2 * c) +
      e * (-p1 * p3 * p4 * t / dampsq * c + p2 * p3 * p4 * t / dampsq * s),
    -p3 * t * e * (p1 * s + p2 * c) + e * dampsq * t * (p1 * c - p2 * s)]

/-- The mean of a list of numbers. (period.py:37, 47, 54, 128) -/
noncomputable def listMean (l : List ℝ) : ℝ := l.sum / l.length

/-- `np.max(np.abs(x))` for a non-empty list (0 for the empty list). (period.py:501-524) -/
noncomputable def maxAbs (l : List ℝ) : ℝ := l.foldr (fun x m => max |x| m) 0

/-- `np.argmax(np.abs(x))`: the first index of a largest absolute value. (period.py:501-524) -/
noncomputable def argmaxAbs (l : List ℝ) : ℕ := l.findIdx fun x => decide (|x| = maxAbs l)

/-- period.py:519-522: the last index of a value above the threshold. -/
noncomputable def lastAbove (l : List ℝ) (thr : ℝ) : Option ℕ :=
  match l.reverse.findIdx? fun x => decide (thr < x) with
  | none => none
  | some j => some (l.length - 1 - j)

/-- period.py:516-524.  `np.max` of an empty array raises `ValueError`; when no sample
exceeds the threshold, `minInd` is unbound. -/
noncomputable def selectGoodData (data : List ℝ) (percent : ℝ) : Except PyErr (List ℝ) :=
  if data = [] then .error .valueError
  else
    let meanSub := data.map fun x => x - listMean data
    let maxInd := argmaxAbs meanSub
    match lastAbove meanSub (percent * maxAbs meanSub) with
    | none => .error .unboundLocal
    | some minInd => .ok ((data.take minInd).drop maxInd)

end BP
