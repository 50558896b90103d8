import Mathlib.Analysis.SpecialFunctions.Trigonometric.Arctan
import Verif.Model.Main

/-!
# Numbers with uncertainties

The package `uncertainties` represents a number by its nominal value and its derivatives with
respect to the independent variables it was computed from.  Here the variables are the elements
of a finite type `ι`, scaled to the standard deviation 1.  The functions of bicycle.py,
geometry.py and main.py that accept such numbers are written once for any kind of number
(`PyNum`); for real numbers they are the functions of Model/Bicycle and Model/Geometry.
-/

namespace BP

open Matrix

/-- What the code does with a number: arithmetic, `**` with a natural exponent, and the functions
of `umath` (which work on floats and on numbers with uncertainties). (bicycle.py:8-172, geometry.py:10-57) -/
class PyNum (R : Type) extends Add R, Sub R, Neg R, Mul R, Div R, Pow R ℕ where
  lit : ℝ → R
  sin : R → R
  cos : R → R
  sqrt : R → R
  atan : R → R

/-- Floats, as real numbers (bicycle.py:8-172). -/
noncomputable instance : PyNum ℝ where
  lit := id
  sin := Real.sin
  cos := Real.cos
  sqrt := Real.sqrt
  atan := Real.arctan

/-- `uncertainties.UFloat`: nominal value and, for each independent variable of standard
deviation 1, the derivative. (bicycle.py:8-172, geometry.py:10-57) -/
structure UNum (ι : Type) where
  nom : ℝ
  lin : ι → ℝ

variable {ι : Type}

/-- The chain rule for a function with the value `y` and the derivative `y'` at the nominal
value. (bicycle.py:8-172, geometry.py:10-57) -/
def UNum.chain (y y' : ℝ) (u : UNum ι) : UNum ι := ⟨y, fun i => y' * u.lin i⟩

/-- The arithmetic of the package `uncertainties` (external, not in /repo): first-order
propagation in every operation. -/
noncomputable instance : PyNum (UNum ι) where
  add u v := ⟨u.nom + v.nom, fun i => u.lin i + v.lin i⟩
  sub u v := ⟨u.nom - v.nom, fun i => u.lin i - v.lin i⟩
  neg u := ⟨-u.nom, fun i => -u.lin i⟩
  mul u v := ⟨u.nom * v.nom, fun i => u.lin i * v.nom + u.nom * v.lin i⟩
  div u v := ⟨u.nom / v.nom, fun i => (u.lin i * v.nom - u.nom * v.lin i) / v.nom ^ 2⟩
  pow u n := UNum.chain (u.nom ^ n) (n * u.nom ^ (n - 1)) u
  lit x := ⟨x, fun _ => 0⟩
  sin u := UNum.chain (Real.sin u.nom) (Real.cos u.nom) u
  cos u := UNum.chain (Real.cos u.nom) (-Real.sin u.nom) u
  sqrt u := UNum.chain (√u.nom) (1 / (2 * √u.nom)) u
  atan u := UNum.chain (Real.arctan u.nom) (1 / (1 + u.nom ^ 2)) u

/-- `u.std_dev` (tables.py:205-252) -/
noncomputable def UNum.std [Fintype ι] (u : UNum ι) : ℝ := √(∑ i, u.lin i ^ 2)

/-! ## benchmark_par_to_canonical, bicycle.py:105-170, for any numbers -/

/-- The values that bicycle.py:105-168 reads. -/
structure BenchN (R : Type) where
  (w c lam : R)
  (rR mR IRxx IRyy : R)
  (xB zB mB IBxx IBxz IBzz : R)
  (xH zH mH IHxx IHxz IHzz : R)
  (rF mF IFxx IFyy : R)

/-- The four matrices. (bicycle.py:78-171) -/
structure CanonN (R : Type) where
  (M C1 K0 K2 : Matrix (Fin 2) (Fin 2) R)

namespace BenchN
variable {R : Type} [PyNum R] (p : BenchN R)

/-- bicycle.py:105 -/
def mT : R := p.mR + p.mB + p.mH + p.mF
/-- bicycle.py:106 -/
def xT : R := (p.xB * p.mB + p.xH * p.mH + p.w * p.mF) / p.mT
/-- bicycle.py:107-108 -/
def zT : R := (-p.rR * p.mR + p.zB * p.mB + p.zH * p.mH - p.rF * p.mF) / p.mT
/-- bicycle.py:110-112 -/
def ITxx : R :=
  p.IRxx + p.IBxx + p.IHxx + p.IFxx + p.mR * p.rR ^ 2 + p.mB * p.zB ^ 2 + p.mH * p.zH ^ 2 +
    p.mF * p.rF ^ 2
/-- bicycle.py:113-114 -/
def ITxz : R := p.IBxz + p.IHxz - p.mB * p.xB * p.zB - p.mH * p.xH * p.zH + p.mF * p.w * p.rF
/-- bicycle.py:115-118 (`IRzz` and `IFzz` are `IRxx` and `IFxx`) -/
def ITzz : R :=
  p.IRxx + p.IBzz + p.IHzz + p.IFxx + p.mB * p.xB ^ 2 + p.mH * p.xH ^ 2 + p.mF * p.w ^ 2
/-- bicycle.py:120 -/
def mA : R := p.mH + p.mF
/-- bicycle.py:121 -/
def xA : R := (p.xH * p.mH + p.w * p.mF) / p.mA
/-- bicycle.py:122 -/
def zA : R := (p.zH * p.mH - p.rF * p.mF) / p.mA
/-- bicycle.py:124-125 -/
def IAxx : R := p.IHxx + p.IFxx + p.mH * (p.zH - p.zA) ^ 2 + p.mF * (p.rF + p.zA) ^ 2
/-- bicycle.py:126-127 -/
def IAxz : R :=
  p.IHxz - p.mH * (p.xH - p.xA) * (p.zH - p.zA) + p.mF * (p.w - p.xA) * (p.rF + p.zA)
/-- bicycle.py:128-129 -/
def IAzz : R := p.IHzz + p.IFxx + p.mH * (p.xH - p.xA) ^ 2 + p.mF * (p.w - p.xA) ^ 2
/-- bicycle.py:130 -/
def uA : R := (p.xA - p.w - p.c) * PyNum.cos p.lam - p.zA * PyNum.sin p.lam
/-- bicycle.py:131-133 -/
def IAll : R :=
  p.mA * p.uA ^ 2 + p.IAxx * PyNum.sin p.lam ^ 2 +
    PyNum.lit 2 * p.IAxz * PyNum.sin p.lam * PyNum.cos p.lam + p.IAzz * PyNum.cos p.lam ^ 2
/-- bicycle.py:134 -/
def IAlx : R := -p.mA * p.uA * p.zA + p.IAxx * PyNum.sin p.lam + p.IAxz * PyNum.cos p.lam
/-- bicycle.py:135 -/
def IAlz : R := p.mA * p.uA * p.xA + p.IAxz * PyNum.sin p.lam + p.IAzz * PyNum.cos p.lam
/-- bicycle.py:137 -/
def mu : R := p.c / p.w * PyNum.cos p.lam
/-- bicycle.py:139 -/
def SR : R := p.IRyy / p.rR
/-- bicycle.py:140 -/
def SF : R := p.IFyy / p.rF
/-- bicycle.py:141 -/
def ST : R := p.SR + p.SF
/-- bicycle.py:142 -/
def SA : R := p.mA * p.uA + p.mu * p.mT * p.xT

/-- bicycle.py:144-148 -/
def M : Matrix (Fin 2) (Fin 2) R :=
  let Mpd := p.IAlx + p.mu * p.ITxz
  !![p.ITxx, Mpd; Mpd, p.IAll + PyNum.lit 2 * p.mu * p.IAlz + p.mu ^ 2 * p.ITzz]

/-- bicycle.py:150-154 -/
def K0 : Matrix (Fin 2) (Fin 2) R :=
  let K0pd := -p.SA
  !![p.mT * p.zT, K0pd; K0pd, -p.SA * PyNum.sin p.lam]

/-- bicycle.py:156-160 -/
def K2 : Matrix (Fin 2) (Fin 2) R :=
  !![PyNum.lit 0, (p.ST - p.mT * p.zT) / p.w * PyNum.cos p.lam;
     PyNum.lit 0, (p.SA + p.SF * PyNum.sin p.lam) / p.w * PyNum.cos p.lam]

/-- bicycle.py:162-168 -/
def C1 : Matrix (Fin 2) (Fin 2) R :=
  !![PyNum.lit 0, p.mu * p.ST + p.SF * PyNum.cos p.lam + p.ITxz / p.w * PyNum.cos p.lam -
        p.mu * p.mT * p.zT;
     -(p.mu * p.ST + p.SF * PyNum.cos p.lam),
       p.IAlz / p.w * PyNum.cos p.lam + p.mu * (p.SA + p.ITzz / p.w * PyNum.cos p.lam)]

/-- bicycle.py:170 -/
def canon : CanonN R := ⟨p.M, p.C1, p.K0, p.K2⟩

/-- The values of the dictionary (`0` for missing keys, only used once all keys are known to be
present). (bicycle.py:105-168) -/
def ofDict (d : Dict R) : BenchN R :=
  let v := fun k => Dict.getD d k (PyNum.lit 0)
  { w := v "w", c := v "c", lam := v "lam",
    rR := v "rR", mR := v "mR", IRxx := v "IRxx", IRyy := v "IRyy",
    xB := v "xB", zB := v "zB", mB := v "mB", IBxx := v "IBxx", IBxz := v "IBxz",
    IBzz := v "IBzz",
    xH := v "xH", zH := v "zH", mH := v "mH", IHxx := v "IHxx", IHxz := v "IHxz",
    IHzz := v "IHzz",
    rF := v "rF", mF := v "mF", IFxx := v "IFxx", IFyy := v "IFyy" }

end BenchN

variable {R : Type} [PyNum R]

/-- bicycle.py:78-170 for any numbers, see `benchmarkParToCanonical`. -/
def canonicalN (p : Dict R) : Dict R × Except PyErr (CanonN R) :=
  match Dict.require p canonKeysBefore with
  | .error e => (p, .error e)
  | .ok () =>
    let p1 := Dict.set p "IRzz" (Dict.getD p "IRxx" (PyNum.lit 0))
    let p2 := Dict.set p1 "IFzz" (Dict.getD p1 "IFxx" (PyNum.lit 0))
    match Dict.require p2 canonKeysAfter with
    | .error e => (p2, .error e)
    | .ok () => (p2, .ok (BenchN.ofDict p2).canon)

/-! ## ab_matrix, bicycle.py:61-75, for any numbers -/

/-- bicycle.py:61-63 -/
def invN (M : Matrix (Fin 2) (Fin 2) R) : Matrix (Fin 2) (Fin 2) R :=
  let d := PyNum.lit 1 / (M 0 0 * M 1 1 - M 0 1 * M 1 0)
  !![d * M 1 1, d * (-M 0 1); d * (-M 1 0), d * M 0 0]

/-- `-np.dot(a, b)` for two by two arrays. (bicycle.py:8-76) -/
def negDotN (a b : Matrix (Fin 2) (Fin 2) R) : Matrix (Fin 2) (Fin 2) R :=
  fun i j => -(a i 0 * b 0 j + a i 1 * b 1 j)

/-- bicycle.py:65-75; the speed is a float. -/
def abN (m : CanonN R) (v : ℝ) (g : R) : Matrix (Fin 4) (Fin 4) R × Matrix (Fin 4) (Fin 2) R :=
  let i := invN m.M
  let p := negDotN i fun k l => g * m.K0 k l + PyNum.lit (v ^ 2) * m.K2 k l
  let q := negDotN i fun k l => PyNum.lit v * m.C1 k l
  let o := (PyNum.lit 0 : R)
  let e := (PyNum.lit 1 : R)
  (!![o, o, e, o; o, o, o, e; p 0 0, p 0 1, q 0 0, q 0 1; p 1 0, p 1 1, q 1 0, q 1 1],
   !![o, o; o, o; i 0 0, i 0 1; i 1 0, i 1 1])

/-! ## Bicycle.canonical and Bicycle.state_space, main.py:1034-1156 -/

/-- `unumpy.nominal_values` (main.py:1092-1095, 1152) -/
def nominalValues {m n : Type} (a : Matrix m n (UNum ι)) : Matrix m n ℝ := fun i j => (a i j).nom

/-- What `canonical` and `state_space` return: plain numbers or numbers with uncertainties. (main.py:1034-1156) -/
inductive Returned (α β : Type) where
  | plain (a : α)
  | uncertain (b : β)

/-- main.py:1034-1099. -/
noncomputable def bikeCanonicalU (params : Dict (Dict (UNum ι))) (nominal : Nominal) :
    Dict (Dict (UNum ι)) × Except PyErr (Returned (CanonN ℝ) (CanonN (UNum ι))) :=
  match Dict.get params "Benchmark" with
  | .error e => (params, .error e)
  | .ok par =>
    let (par', r) := canonicalN par
    (Dict.set params "Benchmark" par',
      match r with
      | .error e => .error e
      | .ok m =>
        match nominal with
        | .yes => .ok (.plain ⟨nominalValues m.M, nominalValues m.C1, nominalValues m.K0,
            nominalValues m.K2⟩)
        | .no => .ok (.uncertain m)
        | .other => .error .valueError)

/-- main.py:1101-1156.  `canonical()` is called with `nominal=False`. -/
noncomputable def bikeStateSpaceU (params : Dict (Dict (UNum ι))) (speed : ℝ) (nominal : Nominal) :
    Dict (Dict (UNum ι)) × Except PyErr
      (Returned (Matrix (Fin 4) (Fin 4) ℝ × Matrix (Fin 4) (Fin 2) ℝ)
        (Matrix (Fin 4) (Fin 4) (UNum ι) × Matrix (Fin 4) (Fin 2) (UNum ι))) :=
  match bikeCanonicalU params .no with
  | (params', .error e) => (params', .error e)
  | (params', .ok (.plain _)) => (params', .error .typeError)
  | (params', .ok (.uncertain m)) =>
    match Dict.get params' "Benchmark" with
    | .error e => (params', .error e)
    | .ok par =>
      match Dict.get par "g" with
      | .error e => (params', .error e)
      | .ok g =>
        let ab := abN m speed g
        (params',
          match nominal with
          | .yes => .ok (.plain (nominalValues ab.1, nominalValues ab.2))
          | .no => .ok (.uncertain ab)
          | .other => .error .valueError)

/-! ## lambda_from_abc, trail and the geometry with uncertainties -/

/-- bicycle.py:360-363 for any numbers. -/
def trailN (rF lam fo : R) : R × R :=
  let c := (rF * PyNum.sin lam - fo) / PyNum.cos lam
  (c, c * PyNum.cos lam)

/-- geometry.py:84-89 for any numbers. -/
noncomputable def abcN (h1 h2 h3 h4 h5 d1 d2 d3 d4 d : R) : R × R × R :=
  let half := (PyNum.lit 0.5 : R)
  let a := h1 + h2 - h3 + half * d1 - half * d2
  let b := h4 - half * d3 - h5 + half * d4
  let c := PyNum.sqrt (-(a - b) ^ 2 + (d + half * (d2 + d3)) ^ 2)
  (a, b, c)

/-- geometry.py:27 and 28 for any numbers. -/
noncomputable def wheelRadiusN (d n : R) : R := d / PyNum.lit 2 / PyNum.lit Real.pi / n

/-- An argument of `lambda_from_abc`: a float, or a number with an uncertainty. (bicycle.py:173-210) -/
inductive FloatOrU (ι : Type) where
  | float (x : ℝ)
  | u (x : UNum ι)

/-- `x.nominal_value`: floats have no such attribute. (bicycle.py:205-208) -/
def FloatOrU.nominal : FloatOrU ι → Except PyErr ℝ
  | .float _ => .error .attributeError
  | .u x => .ok x.nom

/-- A float is a number without uncertainty in arithmetic. (bicycle.py:173-210) -/
noncomputable def FloatOrU.num : FloatOrU ι → UNum ι
  | .float x => PyNum.lit x
  | .u x => x

/-- The same number in the presence of one more independent variable. (bicycle.py:173-210) -/
def UNum.lift (u : UNum ι) : UNum (Option ι) := ⟨u.nom, fun i => i.elim 0 u.lin⟩

/-- `ufloat(x, s)`: a new independent variable. (bicycle.py:173-210) -/
def UNum.fresh (x s : ℝ) : UNum (Option ι) := ⟨x, fun i => i.elim s fun _ => 0⟩

/-- bicycle.py:173-209.  The result is a new independent variable (`none`) whose standard deviation
is that of the first guess. -/
noncomputable def lambdaFromAbcU [Fintype ι] (newton : (ℝ → ℝ) → ℝ → Except PyErr ℝ)
    (rF rR a b c : FloatOrU ι) : Except PyErr (UNum (Option ι)) :=
  let guess : UNum ι := PyNum.atan (c.num / (a.num + b.num))
  rF.nominal.bind fun rF' => rR.nominal.bind fun rR' => a.nominal.bind fun a' =>
    b.nominal.bind fun b' => c.nominal.bind fun c' =>
      (newton (fun lam => lamEquality lam rF' rR' a' b' c') guess.nom).map fun lam =>
        UNum.fresh lam guess.std

/-! ## calculate_benchmark_geometry, geometry.py:10-57 -/

/-- An operation on two numbers: on two floats it gives a float. (geometry.py:10-57) -/
noncomputable def FloatOrU.op₂ (f : ℝ → ℝ → ℝ) (g : UNum ι → UNum ι → UNum ι) :
    FloatOrU ι → FloatOrU ι → FloatOrU ι
  | .float x, .float y => .float (f x y)
  | x, y => .u (g x.num y.num)

/-- A function of one number: of a float it is a float. (geometry.py:10-57) -/
noncomputable def FloatOrU.op₁ (f : ℝ → ℝ) (g : UNum ι → UNum ι) : FloatOrU ι → FloatOrU ι
  | .float x => .float (f x)
  | .u x => .u (g x)

/-- Floats and numbers with uncertainties mixed, as in the dictionaries that are read from
measurement files. -/
noncomputable instance : PyNum (FloatOrU ι) where
  add := FloatOrU.op₂ (· + ·) (· + ·)
  sub := FloatOrU.op₂ (· - ·) (· - ·)
  mul := FloatOrU.op₂ (· * ·) (· * ·)
  div := FloatOrU.op₂ (· / ·) (· / ·)
  neg := FloatOrU.op₁ (- ·) (- ·)
  pow x n := FloatOrU.op₁ (· ^ n) (· ^ n) x
  lit := .float
  sin := FloatOrU.op₁ Real.sin PyNum.sin
  cos := FloatOrU.op₁ Real.cos PyNum.cos
  sqrt := FloatOrU.op₁ Real.sqrt PyNum.sqrt
  atan := FloatOrU.op₁ Real.arctan PyNum.atan

/-- A measured number among the independent variables and the new one. (geometry.py:10-57) -/
noncomputable def FloatOrU.out (x : FloatOrU ι) : UNum (Option ι) := x.num.lift

/-- geometry.py:31-44, see `frameGeometry`: tilt, wheelbase and fork offset. -/
noncomputable def frameGeometryU [Fintype ι] (newton : (ℝ → ℝ) → ℝ → Except PyErr ℝ)
    (mp : Dict (FloatOrU ι)) (rF rR : FloatOrU ι) :
    Except PyErr (UNum (Option ι) × UNum (Option ι) × UNum (Option ι)) :=
  let v := fun k => Dict.getD mp k (.float 0)
  if Dict.has mp "w" then
    match Dict.require mp ["gamma", "w", "f"] with
    | .error e => .error e
    | .ok () =>
      .ok ((PyNum.lit (Real.pi / 180) * (PyNum.lit 90 - v "gamma") : FloatOrU ι).out, (v "w").out,
        (v "f").out)
  else
    match Dict.require mp ["h1", "h2", "h3", "h4", "h5", "d1", "d2", "d3", "d4", "d"] with
    | .error e => .error e
    | .ok () =>
      let (a, b, c) := abcN (v "h1") (v "h2") (v "h3") (v "h4") (v "h5")
        (v "d1") (v "d2") (v "d3") (v "d4") (v "d")
      match lambdaFromAbcU newton rF rR a b c with
      | .error e => .error e
      | .ok lam =>
        .ok (lam, (a + b).out * PyNum.cos lam + c.out * PyNum.sin lam, b.out)

/-- geometry.py:50-55, see `transferLateral`. -/
noncomputable def transferLateralU (mp : Dict (FloatOrU ι)) (par : Dict (UNum (Option ι))) :
    Dict (UNum (Option ι)) :=
  match Dict.find? mp "xcl" with
  | none => par
  | some x =>
    match Dict.find? mp "zcl" with
    | none => Dict.set par "xcl" x.out
    | some z => Dict.set (Dict.set par "xcl" x.out) "zcl" z.out

/-- geometry.py:10-57, see `calculateBenchmarkGeometry`.  In the result a float is a number without
uncertainty. -/
noncomputable def calculateBenchmarkGeometryU [Fintype ι] (newton : (ℝ → ℝ) → ℝ → Except PyErr ℝ)
    (mp : Dict (FloatOrU ι)) (par : Dict (UNum (Option ι))) :
    Except PyErr (Dict (UNum (Option ι))) :=
  let v := fun k => Dict.getD mp k (.float 0)
  match Dict.require mp ["dF", "nF", "dR", "nR"] with
  | .error e => .error e
  | .ok () =>
    let rF := wheelRadiusN (v "dF") (v "nF")
    let rR := wheelRadiusN (v "dR") (v "nR")
    match frameGeometryU newton mp rF rR with
    | .error e => .error e
    | .ok (lam, w, fo) =>
      let par := Dict.set (Dict.set par "rF" rF.out) "rR" rR.out
      let par := Dict.set (Dict.set par "lam" lam) "w" w
      let par := Dict.set par "c" (trailN rF.out lam fo).1
      .ok (transferLateralU mp par)

end BP
