import Mathlib.LinearAlgebra.Matrix.NonsingularInverse
import Mathlib.Analysis.Calculus.Deriv.Basic
import Verif.Model.Period

/-!
# period.py: get_period, make_guess, average_rectified_sections

`scipy.optimize.leastsq` is a parameter.  A number that is not defined (`nan`) is `none`.
-/

namespace BP

open Real Matrix

/-! ## make_guess, period.py:405-451 -/

open Classical in
/-- period.py:42 and 439: the indices `i` at which the sign of the samples changes, counting 0 as a
sign of its own. -/
noncomputable def signChanges (l : List ℝ) : List ℕ :=
  (List.range (l.length - 1)).filter fun i : ℕ =>
    decide (SignType.sign (l.getD (i + 1) 0) ≠ SignType.sign (l.getD i 0))

open Classical in
/-- period.py:437-439: the sign changes between samples that `masked_inside` leaves.  `np.where`
does not look at the mask of a masked array in every version of numpy; `respectsMask` tells whether
it does. -/
noncomputable def maskedChanges (respectsMask : Bool) (l : List ℝ) : List ℕ :=
  (signChanges l).filter fun i : ℕ =>
    !respectsMask || (decide (0.1 < |l.getD i 0|) && decide (0.1 < |l.getD (i + 1) 0|))

/-- `zeroCrossings[i - 1]`: the last one for `i = 0`. (period.py:405-451) -/
def previousCrossing (zc : List ℕ) (i : ℕ) : ℕ :=
  if i = 0 then zc.getD (zc.length - 1) 0 else zc.getD (i - 1) 0

/-- period.py:440-444: the crossings more than 20 samples away from the previous one. -/
def farCrossings (zc : List ℕ) : List ℕ :=
  ((zc.zipIdx).filter fun e : ℕ × ℕ =>
    decide (20 < |(e.1 : ℤ) - (previousCrossing zc e.2 : ℤ)|)).map Prod.fst

/-- `np.diff`. (period.py:39, 234, 438) -/
noncomputable def npDiff (l : List ℝ) : List ℝ := List.zipWith (fun a b => b - a) l l.tail

/-- The largest number of a list that is not empty. (period.py:425, 428) -/
noncomputable def npMax (l : List ℝ) : ℝ := l.tail.foldl max (l.headD 0)

open Classical in
/-- period.py:410-451.  `data[10]` raises `IndexError` when there are fewer than eleven samples;
the mean of no differences is `nan`. -/
noncomputable def makeGuess (respectsMask : Bool) (data : List ℝ) (rate : ℝ) :
    Except PyErr (Fin 5 → ℝ) :=
  if data.length < 11 then .error .indexError
  else
    let p0 := listMean data
    let d := data.map fun x => x - p0
    let slope : ℝ := if d.getD 0 0 < d.getD 10 0 then 1 else -1
    let zero := (farCrossings (maskedChanges respectsMask d)).map fun n : ℕ => (n : ℝ)
    let samplesPerPeriod := 2 * listMean (npDiff zero)
    .ok ![p0, slope * npMax d / 2, slope * npMax d, 0.001,
      if npDiff zero = [] then 4 else (samplesPerPeriod / rate / 2 / π)⁻¹]

/-! ## get_period, period.py:207-289 -/

/-- The argument `sample_rate_or_time`: a Python `int`, an array of times, or another number (a
`float`, or an integer of numpy). (period.py:207-235) -/
inductive RateOrTime where
  | int (n : ℤ)
  | times (ts : List ℝ)
  | number (x : ℝ)

/-- `int(x)` of a number: towards zero. (period.py:234) -/
noncomputable def pyTrunc (x : ℝ) : ℤ := if 0 ≤ x then ⌊x⌋ else ⌈x⌉

/-- period.py:229-234: the times of the samples and the sample rate.  `np.diff` of a number raises
`ValueError`, and so does `int` of the mean of no differences; with as many times as samples only.
Simplification: equal times (`int(inf)`) are not modelled. -/
noncomputable def sampleTimes (data : List ℝ) : RateOrTime → Except PyErr (List ℝ × ℝ)
  | .int n =>
    if n = 0 then .error .zeroDivision
    else .ok ((List.range data.length).map fun i : ℕ => sampleTime data.length n i, n)
  | .times ts =>
    if npDiff ts = [] then .error .valueError
    else .ok (ts, pyTrunc (1 / listMean (npDiff ts)))
  | .number _ => .error .valueError

/-- The decaying oscillation with the parameters in a vector. (period.py:236-240) -/
noncomputable def oscillation (p : Fin 5 → ℝ) (t : ℝ) : ℝ := fitfunc (p 0) (p 1) (p 2) (p 3) (p 4) t

/-- period.py:264: the Jacobian, one row for each sample. -/
noncomputable def fitJacobian {n : ℕ} (p : Fin 5 → ℝ) (t : Fin n → ℝ) : Matrix (Fin n) (Fin 5) ℝ :=
  Matrix.of fun i => jacFitfunc (p 1) (p 2) (p 3) (p 4) (t i)

/-- period.py:267-270, without the factor `sigma**2`. -/
noncomputable def fitCovariance {n : ℕ} (p : Fin 5 → ℝ) (t : Fin n → ℝ) : Matrix (Fin 5) (Fin 5) ℝ :=
  ((fitJacobian p t)ᵀ * fitJacobian p t)⁻¹

/-- period.py:275-283 with the package uncertainties: independent deviations of natural frequency
and damping ratio are propagated to first order. -/
noncomputable def periodDeviation (zeta wo sZeta sWo : ℝ) : ℝ :=
  √((deriv (fun w => fitPeriod zeta w) wo * sWo) ^ 2 + (deriv (fun z => fitPeriod z wo) zeta * sZeta) ^ 2)

/-- The fit of `n` samples: period.py:250-283 for the result `p` of `leastsq`.  A singular matrix
raises `LinAlgError`; the root of a negative number is `nan`.  Simplification: a damping ratio
outside (-1, 1), for which the oscillation is `nan`, is totalised. -/
noncomputable def fittedPeriod {n : ℕ} (p : Fin 5 → ℝ) (t y : Fin n → ℝ) :
    Except PyErr (ℝ × Option ℝ) :=
  let SSE := (fitGoodness y fun i => oscillation p (t i)).2.1
  open Classical in
  if ((fitJacobian p t)ᵀ * fitJacobian p t).det = 0 then .error .linAlgError
  else .ok (fitPeriod (p 3) (p 4),
    if SSE < 0 then none
    else
      let sigma := √(SSE / (n - 5))
      let U := fun k : Fin 5 => sigma ^ 2 * fitCovariance p t k k
      some (periodDeviation (p 3) (p 4) (√(U 3)) (√(U 4))))

/-- period.py:228-289: the period and its standard deviation.  `leastsq` gets the samples and the
first guess.  Times and samples of different number cannot be subtracted (`ValueError`). -/
noncomputable def getPeriod (respectsMask : Bool)
    (leastsq : List (ℝ × ℝ) → (Fin 5 → ℝ) → Fin 5 → ℝ) (data : List ℝ) (rate : RateOrTime) :
    Except PyErr (ℝ × Option ℝ) :=
  match sampleTimes data rate with
  | .error e => .error e
  | .ok (x, r) =>
    match makeGuess respectsMask data r with
    | .error e => .error e
    | .ok guess =>
      if x.length ≠ data.length then .error .valueError
      else fittedPeriod (leastsq (x.zip data) guess) (fun i : Fin data.length => x.getD i 0)
        (fun i : Fin data.length => data.getD i 0)

/-- period.py:292-304: the samples are cut only when there are no times. -/
noncomputable def getPeriodFromTruncated (respectsMask : Bool)
    (leastsq : List (ℝ × ℝ) → (Fin 5 → ℝ) → Fin 5 → ℝ) (data : List ℝ) (rate : RateOrTime) :
    Except PyErr (ℝ × Option ℝ) :=
  match rate with
  | .times ts => getPeriod respectsMask leastsq data (.times ts)
  | rate => (selectGoodData data 0.1).bind fun good => getPeriod respectsMask leastsq good rate

/-! ## average_rectified_sections, period.py:16-65 -/

/-- `np.split(l, cuts)` for increasing `cuts` within the list. (period.py:45) -/
def npSplit (l : List ℝ) (cuts : List ℕ) : List (List ℝ) :=
  ((0 :: cuts).zip (cuts ++ [l.length])).map fun e => (l.take e.2).drop e.1

open Classical in
/-- `np.argmax`: the first index of a largest number. (period.py:46, 62) -/
noncomputable def argmaxIdx (l : List ℝ) : ℕ := l.findIdx fun x => decide (∀ y ∈ l, y ≤ x)

open Classical in
/-- `np.argmin` (period.py:63) -/
noncomputable def argminIdx (l : List ℝ) : ℕ := l.findIdx fun x => decide (∀ y ∈ l, x ≤ y)

open Classical in
/-- period.py:39-65.  `np.argmax` of an empty array raises `ValueError`, whether the array is a
section or the list of the sections above the threshold. -/
noncomputable def averageRectifiedSections (data : List ℝ) : Except PyErr (List ℝ) :=
  let meanSub := data.map fun x => x - listMean data
  let zc := signChanges meanSub
  let secs := npSplit (meanSub.map abs) zc
  if secs.any (· = []) then .error .valueError
  else
    let secMean := secs.map listMean
    let meanInd := List.zipWith (· + ·) (0 :: zc) (secs.map argmaxIdx)
    let threshold := listMean secMean
    let over := (secMean.zip meanInd).filter fun e => decide (threshold < e.1)
    if over = [] then .error .valueError
    else
      let maxInd := (over.map Prod.snd).getD (argmaxIdx (over.map Prod.fst)) 0
      let minInd := (over.map Prod.snd).getD (argminIdx (over.map Prod.fst)) 0
      .ok ((data.take minInd).drop maxInd)

end BP
