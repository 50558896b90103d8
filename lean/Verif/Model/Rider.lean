import Verif.Model.Inertia

/-!
# rider.py

`yeadon.Human` is represented by the numbers the code reads from it; `scipy.optimize.fsolve`
is a parameter.  `remove_uncertainties` is left out: the values are real numbers (see C47).
Drawing is left out.
-/

namespace BP

open Matrix Real

/-- rider.py:36-38 and 117-119: Yeadon's frame to the bicycle's. -/
def yeadonRot : Mat3 := !![0, -1, 0; -1, 0, 0; 0, 0, -1]

/-- rider.py:57-61.  Simplification: `np.sqrt` of a negative number is `nan` with a warning,
here 0. -/
noncomputable def yeadonOrigin (hbb lcs rR lsp lst lamst : ℝ) : Vec3 :=
  ![√(lcs ^ 2 - (-hbb + rR) ^ 2) + (-lsp - lst) * cos lamst, 0, -hbb + (-lsp - lst) * sin lamst]

/-- rider.py:13-65. -/
noncomputable def yeadonVecToBicycleVec (v : Vec3) (measured benchmark : Dict ℝ) :
    Except PyErr Vec3 :=
  (measured.get "hbb").bind fun hbb => (measured.get "lcs").bind fun lcs =>
  (benchmark.get "rR").bind fun rR => (measured.get "lsp").bind fun lsp =>
  (measured.get "lst").bind fun lst => (measured.get "lamst").bind fun lamst =>
    .ok (yeadonOrigin hbb lcs rR lsp lst lamst + yeadonRot *ᵥ v)

/-- What rider.py reads of a configured `yeadon.Human`: mass, mass centre and central inertia
tensor in Yeadon's frame. -/
structure Human where
  mass : ℝ
  com : Vec3
  inertia : Mat3

/-- `human.inertia_transformed(rotmat=R)`: the central inertia in the rotated frame (yeadon
library).  Because `R` is symmetric here it does not matter which of the two frames `R` maps
from. (rider.py:69-147) -/
def Human.inertiaTransformed (h : Human) (R : Mat3) : Mat3 := R * h.inertia * Rᵀ

/-- rider.py:121-137: the rider's dictionary. -/
noncomputable def riderParOf (h : Human) (bicyclePar measuredPar : Dict ℝ) :
    Except PyErr (Dict ℝ) :=
  let I := h.inertiaTransformed yeadonRot
  (yeadonVecToBicycleVec h.com measuredPar bicyclePar).bind fun c =>
    .ok [("IBxx", I 0 0), ("IByy", I 1 1), ("IBzz", I 2 2), ("IBxz", I 2 0), ("mB", h.mass),
      ("xB", c 0), ("yB", c 1), ("zB", c 2)]

/-- rider.py:68-145, given the human that `rider_on_bike` returns (or its exception): the
rider's dictionary and the bicycle's dictionary after the call. -/
noncomputable def configureRiderNumbers (human : Except PyErr Human)
    (bicyclePar measuredPar : Dict ℝ) : Except PyErr (Dict ℝ × Dict ℝ) :=
  human.bind fun h => (riderParOf h bicyclePar measuredPar).bind fun r =>
    (combineBikeRider bicyclePar r).bind fun b => .ok (r, b)

/-- The numbers `zero` refers to: rider.py:209-243. -/
structure SeatData where
  (Lj3L Lj5L Lj6L Ls4L Ls4w La2L La4L La5L somersault : ℝ)
  (hbb lcs rR rF lsp lst lamst whb LhbR LhbF w : ℝ)

/-- The ten unknowns, rider.py:251-260. -/
structure SeatUnknowns where
  (PJ1extension J1J2flexion CA1extension CA1adduction CA1rotation A1A2extension : ℝ)
  (alpha_y alpha_z beta_y beta_z : ℝ)

/-- rider.py:245-321: the ten residuals. -/
noncomputable def seatResidual (d : SeatData) (x : SeatUnknowns) : Fin 10 → ℝ :=
  let phi_J1 := x.PJ1extension
  let phi_J2 := x.J1J2flexion
  let phi_A1 := x.CA1extension
  let theta_A1 := x.CA1adduction
  let psi_A := x.CA1rotation
  let phi_A2 := x.A1A2extension
  let phi_P := d.somersault
  ![d.Lj3L*(-sin phi_J1*cos phi_P - sin phi_P*cos phi_J1)
      + (-d.lsp - d.lst)*cos d.lamst + (-(-sin phi_J1*
      sin phi_P + cos phi_J1*cos phi_P)*sin phi_J2 +
      (-sin phi_J1*cos phi_P - sin phi_P*cos phi_J1)*
      cos phi_J2)*(-d.Lj3L + d.Lj5L + d.Lj6L),
    d.Lj3L*(-sin phi_J1*sin phi_P + cos phi_J1*cos phi_P)
      + (-d.lsp - d.lst)*sin d.lamst + ((-sin phi_J1*
      sin phi_P + cos phi_J1*cos phi_P)*cos phi_J2 -
      (sin phi_J1*cos phi_P + sin phi_P*cos phi_J1)*
      sin phi_J2)*(-d.Lj3L + d.Lj5L + d.Lj6L),
    -d.LhbF + √(x.alpha_y^2 + x.alpha_z^2 + 0.25*d.whb^2),
    -d.LhbR + √(x.beta_y^2 + x.beta_z^2 + 0.25*d.whb^2),
    x.alpha_y - x.beta_y - d.w,
    x.alpha_z - x.beta_z + d.rF - d.rR,
    -d.La2L*sin theta_A1 + d.Ls4w/2 - 0.5*d.whb + (sin phi_A2*
      sin psi_A*cos theta_A1 + sin theta_A1*cos phi_A2)*
      (d.La2L - d.La4L - d.La5L),
    -d.La2L*(-sin phi_A1*cos phi_P*cos theta_A1 -
      sin phi_P*cos phi_A1*cos theta_A1) - d.Ls4L*sin phi_P
      - x.beta_y - √(d.lcs^2 - (-d.hbb + d.rR)^2) - (-d.lsp -
      d.lst)*cos d.lamst + (-(-(sin phi_A1*cos psi_A +
      sin psi_A*sin theta_A1*cos phi_A1)*sin phi_P +
      (-sin phi_A1*sin psi_A*sin theta_A1 + cos phi_A1*
      cos psi_A)*cos phi_P)*sin phi_A2 + (-sin phi_A1*
      cos phi_P*cos theta_A1 - sin phi_P*cos phi_A1*
      cos theta_A1)*cos phi_A2)*(d.La2L - d.La4L - d.La5L),
    -d.La2L*(-sin phi_A1*sin phi_P*cos theta_A1 +
      cos phi_A1*cos phi_P*cos theta_A1) + d.Ls4L*cos phi_P
      - x.beta_z + d.hbb - d.rR - (-d.lsp - d.lst)*sin d.lamst +
      (-((sin phi_A1*cos psi_A + sin psi_A*sin theta_A1*
      cos phi_A1)*cos phi_P + (-sin phi_A1*sin psi_A*
      sin theta_A1 + cos phi_A1*cos psi_A)*sin phi_P)*
      sin phi_A2 + (-sin phi_A1*sin phi_P*cos theta_A1 +
      cos phi_A1*cos phi_P*cos theta_A1)*cos phi_A2)*(d.La2L
      - d.La4L - d.La5L),
    (sin phi_A1*sin psi_A - sin theta_A1*cos phi_A1*
      cos psi_A)*cos phi_P + (sin phi_A1*sin theta_A1*
      cos psi_A + sin psi_A*cos phi_A1)*sin phi_P]

/-- rider.py:340-353: the configuration handed back to the human, given what `fsolve`
returned.  `fsolve` also returns when it did not converge. -/
noncomputable def seatConfiguration (cfg : Dict ℝ) (somersault : ℝ) (s : SeatUnknowns) : Dict ℝ :=
  let d := cfg.set "PJ1extension" s.PJ1extension
  let d := d.set "J1J2flexion" s.J1J2flexion
  let d := d.set "CA1extension" s.CA1extension
  let d := d.set "CA1adduction" s.CA1adduction
  let d := d.set "CA1rotation" s.CA1rotation
  let d := d.set "A1A2extension" s.A1A2extension
  let d := d.set "somersault" somersault
  let d := d.set "PK1extension" (Dict.getD d "PJ1extension" 0)
  let d := d.set "K1K2flexion" (Dict.getD d "J1J2flexion" 0)
  let d := d.set "CB1extension" (Dict.getD d "CA1extension" 0)
  let d := d.set "CB1abduction" (-Dict.getD d "CA1adduction" 0)
  let d := d.set "CB1rotation" (-Dict.getD d "CA1rotation" 0)
  d.set "B1B2extension" (Dict.getD d "A1A2extension" 0)

/-- rider.py:323-336: the initial guess. -/
noncomputable def seatGuess (d : SeatData) : SeatUnknowns :=
  { PJ1extension := -(90 * (π / 180)), J1J2flexion := 75 * (π / 180)
    CA1extension := -(15 * (π / 180)), CA1adduction := 2 * (π / 180)
    CA1rotation := 2 * (π / 180), A1A2extension := -(40 * (π / 180))
    alpha_y := d.LhbF * cos (45 * (π / 180)), alpha_z := d.LhbF * sin (45 * (π / 180))
    beta_y := -d.LhbR * cos (30 * (π / 180)), beta_z := d.LhbR * sin (30 * (π / 180)) }

/-- The keys of the human's measurements, rider.py:209-216, and of the two bicycle
dictionaries, rider.py:223-243, in the order in which they are read. -/
def measKeys : List String := ["Lj3L", "Lj5L", "Lj6L", "Ls4L", "Ls4w", "La2L", "La4L", "La5L"]

/-- rider.py:209-243: reading the numbers. -/
noncomputable def seatData (meas cfg measured benchmark : Dict ℝ) : Except PyErr SeatData :=
  (meas.require measKeys).bind fun _ => (cfg.get "somersault").bind fun som =>
  (measured.require ["hbb", "lcs"]).bind fun _ => (benchmark.require ["rR", "rF"]).bind fun _ =>
  (measured.require ["lsp", "lst", "lamst", "whb", "LhbR", "LhbF"]).bind fun _ =>
  (benchmark.require ["w"]).bind fun _ =>
    let h := fun k => Dict.getD meas k 0
    let m := fun k => Dict.getD measured k 0
    let b := fun k => Dict.getD benchmark k 0
    .ok { Lj3L := h "Lj3L", Lj5L := h "Lj5L", Lj6L := h "Lj6L", Ls4L := h "Ls4L", Ls4w := h "Ls4w"
          La2L := h "La2L", La4L := h "La4L", La5L := h "La5L", somersault := som
          hbb := m "hbb", lcs := m "lcs", rR := b "rR", rF := b "rF", lsp := m "lsp"
          lst := m "lst", lamst := m "lamst", whb := m "whb", LhbR := m "LhbR"
          LhbF := m "LhbF", w := b "w" }

/-- rider.py:206-356: the configuration of the returned human. -/
noncomputable def riderOnBike (fsolve : (SeatUnknowns → Fin 10 → ℝ) → SeatUnknowns → SeatUnknowns)
    (meas cfg measured benchmark : Dict ℝ) : Except PyErr (Dict ℝ) :=
  (seatData meas cfg measured benchmark).bind fun d =>
    .ok (seatConfiguration cfg d.somersault (fsolve (seatResidual d) (seatGuess d)))

end BP
