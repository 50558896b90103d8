import Mathlib.Analysis.SpecialFunctions.Trigonometric.Arctan
import Mathlib.Analysis.SpecialFunctions.Pow.Real
import Mathlib.LinearAlgebra.Matrix.Notation
import Mathlib.LinearAlgebra.Matrix.Determinant.Basic
import Verif.Py

/-!
# Model of bicycleparameters/bicycle.py

Numbers are real or complex; float rounding and the propagation of
uncertainties are not modelled.
-/

namespace BP

open Real Matrix

/-- 2x2 matrices, `ndarray, shape(2,2)`. (bicycle.py:8-76) -/
abbrev Mat2 (K : Type) := Matrix (Fin 2) (Fin 2) K

/-! ## ab_matrix, bicycle.py:8-75 -/

/-- bicycle.py:61-63, the hand written inverse of the mass matrix.
Simplification: a zero determinant raises `ZeroDivisionError`/gives inf in the
code, here `1/0 = 0`; theorems carry `det ≠ 0`. -/
noncomputable def invM {K : Type} [Field K] (M : Mat2 K) : Mat2 K :=
  (1 / (M 0 0 * M 1 1 - M 0 1 * M 1 0)) • !![M 1 1, -M 0 1; -M 1 0, M 0 0]

/-- bicycle.py:68, `a21 = -np.dot(invM, (g * K0 + v**2 * K2))`. -/
noncomputable def a21 {K : Type} [Field K] (M K0 K2 : Mat2 K) (v g : K) : Mat2 K :=
  -(invM M * (g • K0 + v ^ 2 • K2))

/-- bicycle.py:70, `a22 = -np.dot(invM, v * C1)`. -/
noncomputable def a22 {K : Type} [Field K] (M C1 : Mat2 K) (v : K) : Mat2 K :=
  -(invM M * (v • C1))

/-- bicycle.py:65-66 and 72, the 4x4 state matrix `[[0, I], [a21, a22]]`. -/
noncomputable def abA {K : Type} [Field K] (M C1 K0 K2 : Mat2 K) (v g : K) :
    Matrix (Fin 4) (Fin 4) K :=
  let p := a21 M K0 K2 v g
  let q := a22 M C1 v
  !![0, 0, 1, 0;
     0, 0, 0, 1;
     p 0 0, p 0 1, q 0 0, q 0 1;
     p 1 0, p 1 1, q 1 0, q 1 1]

/-- bicycle.py:73, the 4x2 input matrix `[[0], [invM]]`. -/
noncomputable def abB {K : Type} [Field K] (M : Mat2 K) : Matrix (Fin 4) (Fin 2) K :=
  let i := invM M
  !![0, 0;
     0, 0;
     i 0 0, i 0 1;
     i 1 0, i 1 1]

/-! ## benchmark_par_to_canonical, bicycle.py:78-170 -/

/-- The 25 values of the benchmark dictionary that bicycle.py:105-168 reads. -/
structure Bench where
  (w c lam : ℝ)
  (rR mR IRxx IRyy : ℝ)
  (xB zB mB IBxx IBxz IBzz : ℝ)
  (xH zH mH IHxx IHxz IHzz : ℝ)
  (rF mF IFxx IFyy : ℝ)

namespace Bench
variable (p : Bench)

/-- bicycle.py:105 -/
noncomputable def mT : ℝ := p.mR + p.mB + p.mH + p.mF
/-- bicycle.py:106 -/
noncomputable def xT : ℝ := (p.xB * p.mB + p.xH * p.mH + p.w * p.mF) / p.mT
/-- bicycle.py:107-108 -/
noncomputable def zT : ℝ :=
  (-p.rR * p.mR + p.zB * p.mB + p.zH * p.mH - p.rF * p.mF) / p.mT
/-- bicycle.py:110-112 -/
noncomputable def ITxx : ℝ :=
  p.IRxx + p.IBxx + p.IHxx + p.IFxx + p.mR * p.rR ^ 2 + p.mB * p.zB ^ 2 + p.mH * p.zH ^ 2 +
    p.mF * p.rF ^ 2
/-- bicycle.py:113-114 -/
noncomputable def ITxz : ℝ :=
  p.IBxz + p.IHxz - p.mB * p.xB * p.zB - p.mH * p.xH * p.zH + p.mF * p.w * p.rF
/-- bicycle.py:115 -/
noncomputable def IRzz : ℝ := p.IRxx
/-- bicycle.py:116 -/
noncomputable def IFzz : ℝ := p.IFxx
/-- bicycle.py:117-118 -/
noncomputable def ITzz : ℝ :=
  p.IRzz + p.IBzz + p.IHzz + p.IFzz + p.mB * p.xB ^ 2 + p.mH * p.xH ^ 2 + p.mF * p.w ^ 2
/-- bicycle.py:120 -/
noncomputable def mA : ℝ := p.mH + p.mF
/-- bicycle.py:121 -/
noncomputable def xA : ℝ := (p.xH * p.mH + p.w * p.mF) / p.mA
/-- bicycle.py:122 -/
noncomputable def zA : ℝ := (p.zH * p.mH - p.rF * p.mF) / p.mA
/-- bicycle.py:124-125 -/
noncomputable def IAxx : ℝ :=
  p.IHxx + p.IFxx + p.mH * (p.zH - p.zA) ^ 2 + p.mF * (p.rF + p.zA) ^ 2
/-- bicycle.py:126-127 -/
noncomputable def IAxz : ℝ :=
  p.IHxz - p.mH * (p.xH - p.xA) * (p.zH - p.zA) + p.mF * (p.w - p.xA) * (p.rF + p.zA)
/-- bicycle.py:128-129 -/
noncomputable def IAzz : ℝ :=
  p.IHzz + p.IFzz + p.mH * (p.xH - p.xA) ^ 2 + p.mF * (p.w - p.xA) ^ 2
/-- bicycle.py:130 -/
noncomputable def uA : ℝ := (p.xA - p.w - p.c) * cos p.lam - p.zA * sin p.lam
/-- bicycle.py:131-133 -/
noncomputable def IAll : ℝ :=
  p.mA * p.uA ^ 2 + p.IAxx * sin p.lam ^ 2 + 2 * p.IAxz * sin p.lam * cos p.lam +
    p.IAzz * cos p.lam ^ 2
/-- bicycle.py:134 -/
noncomputable def IAlx : ℝ := -p.mA * p.uA * p.zA + p.IAxx * sin p.lam + p.IAxz * cos p.lam
/-- bicycle.py:135 -/
noncomputable def IAlz : ℝ := p.mA * p.uA * p.xA + p.IAxz * sin p.lam + p.IAzz * cos p.lam
/-- bicycle.py:137 -/
noncomputable def mu : ℝ := p.c / p.w * cos p.lam
/-- bicycle.py:139 -/
noncomputable def SR : ℝ := p.IRyy / p.rR
/-- bicycle.py:140 -/
noncomputable def SF : ℝ := p.IFyy / p.rF
/-- bicycle.py:141 -/
noncomputable def ST : ℝ := p.SR + p.SF
/-- bicycle.py:142 -/
noncomputable def SA : ℝ := p.mA * p.uA + p.mu * p.mT * p.xT

/-- bicycle.py:144-148 -/
noncomputable def M : Mat2 ℝ :=
  let Mpd := p.IAlx + p.mu * p.ITxz
  !![p.ITxx, Mpd; Mpd, p.IAll + 2 * p.mu * p.IAlz + p.mu ^ 2 * p.ITzz]

/-- bicycle.py:150-154 -/
noncomputable def K0 : Mat2 ℝ :=
  let K0pd := -p.SA
  !![p.mT * p.zT, K0pd; K0pd, -p.SA * sin p.lam]

/-- bicycle.py:156-160 -/
noncomputable def K2 : Mat2 ℝ :=
  !![0, (p.ST - p.mT * p.zT) / p.w * cos p.lam;
     0, (p.SA + p.SF * sin p.lam) / p.w * cos p.lam]

/-- bicycle.py:162-168 -/
noncomputable def C1 : Mat2 ℝ :=
  !![0, p.mu * p.ST + p.SF * cos p.lam + p.ITxz / p.w * cos p.lam - p.mu * p.mT * p.zT;
     -(p.mu * p.ST + p.SF * cos p.lam),
       p.IAlz / p.w * cos p.lam + p.mu * (p.SA + p.ITzz / p.w * cos p.lam)]

end Bench

/-- The quadruple `(M, C1, K0, K2)` that bicycle.py:170 returns. -/
structure Canon where
  (M C1 K0 K2 : Mat2 ℝ)

/-- bicycle.py:170 -/
noncomputable def Bench.canon (p : Bench) : Canon := ⟨p.M, p.C1, p.K0, p.K2⟩

/-- Keys first read at bicycle.py:105-114, in reading order, and 115-116
(`IRxx`, `IFxx`, already read). -/
def canonKeysBefore : List String :=
  ["mR", "mB", "mH", "mF", "xB", "xH", "w", "rR", "zB", "zH", "rF",
   "IRxx", "IBxx", "IHxx", "IFxx", "IBxz", "IHxz"]

/-- Keys first read after the two assignments, at bicycle.py:117-168 (`IRzz`
and `IFzz` were just assigned). -/
def canonKeysAfter : List String := ["IBzz", "IHzz", "c", "lam", "IRyy", "IFyy"]

/-- The values of the dictionary under the keys of `Bench` (0 for missing
keys, only used once all keys are known to be present). (bicycle.py:105-168) -/
noncomputable def Bench.ofDict (d : Dict ℝ) : Bench :=
  let v := fun k => Dict.getD d k 0
  { w := v "w", c := v "c", lam := v "lam",
    rR := v "rR", mR := v "mR", IRxx := v "IRxx", IRyy := v "IRyy",
    xB := v "xB", zB := v "zB", mB := v "mB", IBxx := v "IBxx", IBxz := v "IBxz",
    IBzz := v "IBzz",
    xH := v "xH", zH := v "zH", mH := v "mH", IHxx := v "IHxx", IHxz := v "IHxz",
    IHzz := v "IHzz",
    rF := v "rF", mF := v "mF", IFxx := v "IFxx", IFyy := v "IFyy" }

/-- bicycle.py:78-170 on dictionaries: the caller's dictionary after the call,
and the matrices or the exception.  The assignments `p['IRzz'] = p['IRxx']` and
`p['IFzz'] = p['IFxx']` (lines 115-116) happen in the caller's dictionary, also
when a later read raises.  Simplification: division by zero is totalised. -/
noncomputable def benchmarkParToCanonical (p : Dict ℝ) : Dict ℝ × Except PyErr Canon :=
  match Dict.require p canonKeysBefore with
  | .error e => (p, .error e)
  | .ok () =>
    let p1 := Dict.set p "IRzz" (Dict.getD p "IRxx" 0)
    let p2 := Dict.set p1 "IFzz" (Dict.getD p1 "IFxx" 0)
    match Dict.require p2 canonKeysAfter with
    | .error e => (p2, .error e)
    | .ok () => (p2, .ok (Bench.ofDict p2).canon)

/-! ## lambda_from_abc, bicycle.py:173-209 -/

/-- bicycle.py:194-195, the function whose root `newton` looks for. -/
noncomputable def lamEquality (lam rF rR a b c : ℝ) : ℝ :=
  sin lam - (rF - rR + c * cos lam) / (a + b)

/-- bicycle.py:196, the initial guess. -/
noncomputable def lamGuess (a b c : ℝ) : ℝ := arctan (c / (a + b))

/-- bicycle.py:205-209 (nominal value).  `scipy.optimize.newton` is a parameter:
given the function and the initial guess it returns a number or raises. -/
noncomputable def lambdaFromAbc (newton : (ℝ → ℝ) → ℝ → Except PyErr ℝ)
    (rF rR a b c : ℝ) : Except PyErr ℝ :=
  newton (fun lam => lamEquality lam rF rR a b c) (lamGuess a b c)

/-! ## sort_eigenmodes, bicycle.py:212-259 -/

/-- bicycle.py:242-248, one entry of `dist`. -/
noncomputable def eigDist (e next : ℂ) : ℝ :=
  |((next.re - e.re) ^ 2 + (next.im - e.im) ^ 2) ^ (0.5 : ℝ)|

/-- `np.argmin` of a non-empty list: the first index of a smallest element
(0 for the empty list, on which numpy raises; `m ≥ 1` in the theorems). (bicycle.py:249-255) -/
noncomputable def argmin : List ℝ → ℕ
  | [] => 0
  | [_] => 0
  | x :: y :: l =>
    let k := argmin (y :: l)
    if x ≤ (y :: l).getD k 0 then 0 else k + 1

/-- `np.max` (0 for the empty list). (bicycle.py:251) -/
noncomputable def listMax : List ℝ → ℝ
  | [] => 0
  | [x] => x
  | x :: y :: l => max x (listMax (y :: l))

/-- bicycle.py:244-253: the index chosen for the current eigenvalue `e` among
those of the next speed, given the indices already used. -/
noncomputable def chooseIdx (e : ℂ) (next : List ℂ) (used : List ℕ) : ℕ :=
  let dist := next.map (eigDist e)
  if argmin dist ∈ used then argmin (dist.set (argmin dist) (listMax dist + 1))
  else argmin dist

/-- bicycle.py:240-257: the inner loop over the current eigenvalues; returns the
chosen index for every `j`, in order. -/
noncomputable def matchRow (next : List ℂ) : List ℂ → List ℕ → List ℕ
  | [], _ => []
  | e :: es, used =>
    let k := chooseIdx e next used
    k :: matchRow next es (used ++ [k])

/-- One row of output: eigenvalues and eigenvector columns. (bicycle.py:212-260) -/
structure EigRow (V : Type) where
  evals : List ℂ
  evecs : List V

/-- bicycle.py:254-255: `evalsorg[i+1, j] = evals[i+1, k]`,
`evecsorg[i+1, :, j] = evecs[i+1, :, k]`. An eigenvector column is an abstract
value `V`. -/
noncomputable def takeRow {V : Type} [Inhabited V] (next : EigRow V) (ks : List ℕ) : EigRow V :=
  ⟨ks.map (fun k => next.evals.getD k 0), ks.map (fun k => next.evecs.getD k default)⟩

/-- bicycle.py:236-257: the outer loop, `prev` is the already sorted row `i`. -/
noncomputable def sortFrom {V : Type} [Inhabited V] (prev : EigRow V) :
    List (EigRow V) → List (EigRow V)
  | [] => []
  | next :: rest =>
    let row := takeRow next (matchRow next.evals prev.evals [])
    row :: sortFrom row rest

/-- bicycle.py:230-259. -/
noncomputable def sortEigenmodes {V : Type} [Inhabited V] : List (EigRow V) → List (EigRow V)
  | [] => []
  | first :: rest => first :: sortFrom first rest

/-- bicycle.py:262-334, `sort_modes` (nominal values): the same loop with
`dist = np.zeros(4)`, then the columns `2:`, `1` and `0` of every row. -/
noncomputable def sortModes {V : Type} [Inhabited V] (rows : List (EigRow V)) :
    List (List ℂ × List V) × List (ℂ × V) × List (ℂ × V) :=
  let org := sortEigenmodes rows
  (org.map (fun r => (r.evals.drop 2, r.evecs.drop 2)),
   org.map (fun r => (r.evals.getD 1 0, r.evecs.getD 1 default)),
   org.map (fun r => (r.evals.getD 0 0, r.evecs.getD 0 default)))

/-! ## trail, bicycle.py:337-363 -/

/-- bicycle.py:360-363, `(c, cm)`; division by a zero cosine is totalised. -/
noncomputable def trail (rF lam fo : ℝ) : ℝ × ℝ :=
  let c := (rF * sin lam - fo) / cos lam
  (c, c * cos lam)

end BP
