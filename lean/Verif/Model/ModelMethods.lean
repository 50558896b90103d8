import Verif.Model.Models

/-!
# models.py: the methods all models share

Eigenvalues, simulations, and the numbers that the plot methods draw.  The model
(`form_state_space_matrices`), `numpy.linalg.eig` and `scipy.integrate.solve_ivp` are
parameters.  Axes, colours, labels and legends are left out.
-/

namespace BP

open Matrix

/-- The pair `(A, B)` of a model with `m` states and `k` inputs. (models.py:77-80) -/
abbrev SS (m k : ℕ) := Matrix (Fin m) (Fin m) ℝ × Matrix (Fin m) (Fin k) ℝ

/-- `form_state_space_matrices`: the stored parameter set and the keyword arguments. (models.py:77-80) -/
abbrev Form (m k : ℕ) := ℕ → Dict OVal → HM (Stack (SS m k))

/-- Eigenvalues, and the eigenvectors as columns. (models.py:82-140) -/
abbrev EigPair (m : ℕ) := (Fin m → ℂ) × Matrix (Fin m) (Fin m) ℂ

/-- `numpy.linalg.eig` on a real matrix.  Simplification: it does not raise. (models.py:135, 140) -/
abbrev Eig (m : ℕ) := Matrix (Fin m) (Fin m) ℝ → EigPair m

section
variable {m k : ℕ}

/-! ## Eigenvalues, models.py:82-140 -/

/-- models.py:133-134, 138-139: the matrix handed to `eig`. -/
def eigMatrix (left : Bool) (p : SS m k) : Matrix (Fin m) (Fin m) ℝ :=
  if left then p.1ᵀ else p.1

/-- models.py:127-140. -/
def calcEigen (form : Form m k) (eig : Eig m) (left : Bool) (s : ℕ) (ov : Dict OVal) :
    HM (Stack (EigPair m)) := do
  let ab ← form s ov
  match ab with
  | .many l => HM.pure (.many (l.map fun p => eig (eigMatrix left p)))
  | .one p => HM.pure (.one (eig (eigMatrix left p)))

/-! ## Simulation, models.py:372-471 -/

/-- The `method` argument of `solve_ivp`. (models.py:413, 467) -/
inductive Method where
  | lsoda
  | rk45

/-- `solve_ivp(f, (t0, tf), y0, t_eval=times, method=...)`: the states at the times that were
reached (the columns of `res.y`), or an exception. (models.py:413-420, 467-470) -/
abbrev Solver (m : ℕ) :=
  Method → (ℝ → (Fin m → ℝ) → Fin m → ℝ) → ℝ → ℝ → (Fin m → ℝ) → List ℝ →
    Except PyErr (List (Fin m → ℝ))

/-- `(times[0], times[-1])`. (models.py:414, 467) -/
def timeSpan : List ℝ → Except PyErr (ℝ × ℝ)
  | [] => .error .indexError
  | t :: ts => .ok (t, ts.getLastD t)

/-- models.py:406-411: `eval_rhs`. -/
def evalRhs (A : Matrix (Fin m) (Fin m) ℝ) (B : Matrix (Fin m) (Fin k) ℝ)
    (f : Option (ℝ → (Fin m → ℝ) → Fin k → ℝ)) (t : ℝ) (x : Fin m → ℝ) : Fin m → ℝ :=
  match f with
  | none => A *ᵥ x
  | some f => A *ᵥ x + B *ᵥ f t x

/-- models.py:423-425: one row of the inputs; `res.y[:, i]` must exist. -/
def inputAt (f : ℝ → (Fin m → ℝ) → Fin k → ℝ) (ys : List (Fin m → ℝ)) (ti : ℝ × ℕ) :
    Except PyErr (Fin k → ℝ) :=
  match ys[ti.2]? with
  | some y => .ok (f ti.1 y)
  | none => .error .indexError

/-- models.py:419-425: the rows of `inputs`. -/
def inputsAt (f : Option (ℝ → (Fin m → ℝ) → Fin k → ℝ)) (ys : List (Fin m → ℝ))
    (times : List ℝ) : Except PyErr (List (Fin k → ℝ)) :=
  match f with
  | none => .ok (times.map fun _ => 0)
  | some f => times.zipIdx.mapM (inputAt f ys)

/-- Matrices of shape `(m, m)`, `(m, k)`.  A stack of matrices makes `A@x` fail. (models.py:406-411) -/
def Stack.asOne {α : Type} : Stack α → Except PyErr α
  | .one a => .ok a
  | .many _ => .error .valueError

/-- The initial conditions as a state; the wrong number of them makes `A@x` fail. (models.py:372-427) -/
def stateOf (m : ℕ) (x0 : List ℝ) : Except PyErr (Fin m → ℝ) :=
  if x0.length = m then .ok fun i => x0.getD i 0 else .error .valueError

/-- models.py:398-427.  The rows of the two returned arrays. -/
def simulate (form : Form m k) (solve : Solver m) (times x0 : List ℝ)
    (f : Option (ℝ → (Fin m → ℝ) → Fin k → ℝ)) (s : ℕ) (ov : Dict OVal) :
    HM (List (Fin m → ℝ) × List (Fin k → ℝ)) := do
  let p ← parseOverrides s ov
  if p.arrayKeys ≠ [] then HM.raise .valueError
  else do
    let ab ← form s ov
    let ab ← HM.ofExcept ab.asOne
    let span ← HM.ofExcept (timeSpan times)
    let x ← HM.ofExcept (stateOf m x0)
    let ys ← HM.ofExcept (solve .lsoda (evalRhs ab.1 ab.2 f) span.1 span.2 x times)
    let us ← HM.ofExcept (inputsAt f ys times)
    HM.pure (ys, us)

/-- models.py:469: `results[i] = sim_res.y.T`, where `results[i]` has `n` rows: the
shapes must agree, one row is repeated. -/
def assignRows {α : Type} (n : ℕ) (ys : List α) : Except PyErr (List α) :=
  if ys.length = n then .ok ys
  else match ys with
    | [y] => .ok (List.replicate n y)
    | _ => .error .valueError

/-- models.py:464-469: one mode. -/
def simulateMode (solve : Solver m) (A : Matrix (Fin m) (Fin m) ℝ) (e : EigPair m)
    (times : List ℝ) (i : Fin m) : Except PyErr (List (Fin m → ℝ)) :=
  (timeSpan times).bind fun span =>
    (solve .rk45 (fun _ x => A *ᵥ x) span.1 span.2 (fun j => (e.2 j i).re) times).bind
      (assignRows times.length)

/-- models.py:450-471: the trajectories of every mode. -/
def simulateModes (form : Form m k) (eig : Eig m) (solve : Solver m) (times : List ℝ)
    (s : ℕ) (ov : Dict OVal) : HM (List (List (Fin m → ℝ))) := do
  let p ← parseOverrides s ov
  if p.arrayKeys ≠ [] then HM.raise .valueError
  else do
    let ab ← form s ov
    let e ← calcEigen form eig false s ov
    let ab ← HM.ofExcept ab.asOne
    let e ← HM.ofExcept e.asOne
    HM.ofExcept ((List.finRange m).mapM (simulateMode solve ab.1 e times))

/-- models.py:1455-1464: `MooreRiderLean2012Model.simulate`.  The last component is the
caller's `initial_conditions` afterwards.  Simplification: a varying speed or radius always
makes the assignment fail (numpy accepts arrays of length one). -/
noncomputable def riderLeanSimulate (form : Form m k) (solve : Solver m) (times x0 : List ℝ)
    (f : Option (ℝ → (Fin m → ℝ) → Fin k → ℝ)) (s : ℕ) (ov : Dict OVal) (h : Heap) :
    (Except PyErr (List (Fin m → ℝ) × List (Fin k → ℝ)) × Heap) × List ℝ :=
  match parseOverrides s ov h with
  | (.error e, h') => ((.error e, h'), x0)
  | (.ok p, h') =>
    match (h'.getD p.par []).get "v", (h'.getD p.par []).get "rr" with
    | .ok (.num v), .ok (.num rr) =>
      if 9 < x0.length then
        (simulate form solve times (x0.set 9 (-v.val / rr.val)) f s ov h',
          x0.set 9 (-v.val / rr.val))
      else ((.error .indexError, h'), x0)
    | .error e, _ => ((.error e, h'), x0)
    | .ok _, .error e => ((.error e, h'), x0)
    | .ok _, .ok _ => ((.error .valueError, h'), x0)

/-! ## Eigenvalue plots, models.py:142-258 -/

/-- A row of `evals` and `evecs` as `sort_eigenmodes` reads it. (models.py:142-258) -/
noncomputable def eigRow (e : EigPair m) : EigRow (Fin m → ℂ) :=
  ⟨List.ofFn e.1, List.ofFn fun j i => e.2 i j⟩

/-- What `plot_eigenvalue_parts` draws: the abscissae, whether each of them is shaded, and
for each mode the imaginary and the real parts (`none` where nothing is drawn). (models.py:142-258) -/
structure EigenvaluePlot where
  xs : List SVal
  stable : Option (List Bool)
  imag : List (List (Option ℝ))
  real : List (List (Option ℝ))

open Classical in
/-- models.py:221-222, 237-238: hiding small values. -/
noncomputable def hideZero (tol : Option ℝ) (x : ℝ) : Option ℝ :=
  match tol with
  | none => some x
  | some tol => if |x| < tol then none else some x

open Classical in
/-- models.py:207: `np.all(evals.real <= 0.0, axis=1)`, one row. -/
noncomputable def rowStable (r : EigRow (Fin m → ℂ)) : Bool := r.evals.all fun e => e.re ≤ 0

/-- models.py:187-258 for `.many` eigenvalues; `tol` is none without `hide_zeros`. -/
noncomputable def drawEigenvalues (sort showStable : Bool) (tol : Option ℝ) (xs : List SVal)
    (es : List (EigPair m)) : Except PyErr EigenvaluePlot :=
  if es = [] then .error (if !sort && showStable then .valueError else .indexError)
  else
    let rows := if sort then sortEigenmodes (es.map eigRow) else es.map eigRow
    .ok ⟨xs, if showStable then some (rows.map rowStable) else none,
      (List.range m).map fun j => rows.map fun r => hideZero tol |(r.evals.getD j 0).im|,
      (List.range m).map fun j => rows.map fun r => hideZero tol (r.evals.getD j 0).re⟩

/-- models.py:187-258.  With a single set of eigenvalues `legend` is never assigned; before
that, `array_keys[0]` fails without arrays, and so does shading an array of another length
than one. -/
noncomputable def plotEigenvalueParts (form : Form m k) (eig : Eig m)
    (sort showStable : Bool) (tol : Option ℝ) (s : ℕ) (ov : Dict OVal) : HM EigenvaluePlot := do
  let e ← calcEigen form eig false s ov
  let p ← parseOverrides s ov
  let d ← HM.load p.par
  match e, p.arrayKeys with
  | .one _, [] => HM.raise (if showStable then .indexError else .unboundLocal)
  | .one _, _ :: _ =>
    HM.raise (if showStable && p.arrayLen != some 1 then .valueError else .unboundLocal)
  | .many _, [] => HM.raise .indexError
  | .many es, key :: _ =>
    match d.get key with
    | .ok (.arr xs) => HM.ofExcept (drawEigenvalues sort showStable tol xs es)
    | _ => HM.raise .typeError

/-! ## Eigenvector plots, models.py:260-370 -/

/-- One polar plot: the eigenvalue in the title and the end point (angle, radius) of each
line. (models.py:260-370) -/
structure PolarPlot where
  eigenvalue : ℂ
  lines : List (ℝ × ℝ)

/-- models.py:297: the rows of `eval_seq`. -/
def evalSeq (e : Stack (EigPair m)) : List (List ℂ) :=
  match e with
  | .one p => [List.ofFn p.1]
  | .many l => l.map fun p => List.ofFn p.1

/-- models.py:297, 336: `np.atleast_3d(evecs).T`, an array with axes `(0, 1, 2)` becomes one
with axes `(2, 1, 0)`; `atleast_3d` adds the third axis at the end. -/
def evecSeqT (e : Stack (EigPair m)) : List (List (List ℂ)) :=
  match e with
  | .one p => [List.ofFn fun b => List.ofFn fun c => p.2 c b]
  | .many l => List.ofFn fun a => List.ofFn fun b => l.map fun p => p.2 b a

/-- models.py:348-354: the lines of one plot; `lw` has one width per state. -/
noncomputable def polarPlot (m : ℕ) (ev : ℂ × List ℂ) : Except PyErr PolarPlot :=
  if ev.2.length ≤ m then
    .ok ⟨ev.1, ev.2.map fun c => (c.arg, ‖c‖ / listMax (ev.2.map fun c => ‖c‖))⟩
  else .error .indexError

/-- models.py:293-370 without `hide_zeros`. -/
noncomputable def plotEigenvectors (form : Form m k) (eig : Eig m) (s : ℕ) (ov : Dict OVal) :
    HM (List (List PolarPlot)) := do
  let p ← parseOverrides s ov
  let e ← calcEigen form eig false s ov
  if evalSeq e = [] then HM.raise .indexError
  else if 10 < (evalSeq e).length then HM.raise .valueError
  else do
    let n := if p.arrayKeys = [] then 1 else p.arrayLen.getD 0
    HM.ofExcept ((((evalSeq e).zip (evecSeqT e)).take n).mapM fun r =>
      (r.1.zip r.2).mapM (polarPlot m))

/-! ## Modal controllability, models.py:830-950 -/

/-- models.py:919: `Re(q.H @ b)`. -/
noncomputable def modNum (q : Fin m → ℂ) (b : Fin m → ℝ) : ℝ :=
  (∑ i, (starRingEnd ℂ) (q i) * (b i : ℂ)).re

/-- models.py:927: the product of the norms. -/
noncomputable def modDen (q : Fin m → ℂ) (b : Fin m → ℝ) : ℝ :=
  Real.sqrt (∑ i, ‖q i‖ ^ 2) * Real.sqrt (∑ i, b i ^ 2)

/-- models.py:900-935. -/
noncomputable def modCont (acute : Bool) (q : Fin m → ℂ) (b : Fin m → ℝ) : ℝ :=
  Real.arccos (if acute then |modNum q b / modDen q b| else modNum q b / modDen q b)

/-- models.py:939-943: the matrix `B` of each slice and the sorted left eigenvectors, one after the other. -/
noncomputable def modRow (acute : Bool) (be : SS m k × EigRow (Fin m → ℂ)) :
    List (List ℝ) :=
  be.2.evecs.map fun q => (List.finRange k).map fun j => modCont acute q fun i => be.1.2 i j

/-- models.py:896-950.  `sort_eigenmodes` iterates over the rows of `evals`, which are single
numbers without an array (`TypeError`), and reads the first row (`IndexError` if there is
none).  Simplification: `m > 1`. -/
noncomputable def calcModalControllability (form : Form m k) (eig : Eig m) (acute : Bool)
    (s : ℕ) (ov : Dict OVal) : HM (List (List (List ℝ))) := do
  let ab ← form s ov
  let e ← calcEigen form eig true s ov
  match ab, e with
  | .many l, .many es =>
    if es = [] then HM.raise .indexError
    else HM.pure ((l.zip (sortEigenmodes (es.map eigRow))).map (modRow acute))
  | _, _ => HM.raise .typeError

end

/-! ## Gain plots, models.py:1164-1233 -/

/-- models.py:1221-1226: the curve of one gain. -/
noncomputable def gainCurve (d : Dict MVal) (keys : List String) (xs : List SVal) (name : String) :
    Except PyErr (List SVal × List ℝ) :=
  (d.get name).bind fun y => match y with
    | .arr ys => if name ∈ keys then .ok (xs, ys.map SVal.val) else .error .typeError
    | .num y => .ok (xs, xs.map fun _ => y.val)

/-- models.py:1201-1233: the eight curves.  The message printed when there are several
candidates for the abscissa is not modelled. -/
noncomputable def plotGains (s : ℕ) (ov : Dict OVal) : HM (List (List SVal × List ℝ)) := do
  let p ← parseOverrides s ov
  let d ← HM.load p.par
  match p.arrayKeys.filter (· ∉ gainNames) with
  | [] => HM.raise .valueError
  | key :: _ =>
    match d.get key with
    | .ok (.arr xs) => HM.ofExcept (gainNames.mapM (gainCurve d p.arrayKeys xs))
    | .ok _ => HM.raise .typeError
    | .error e => HM.raise e

end BP
