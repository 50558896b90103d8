import Mathlib.Analysis.SpecialFunctions.Complex.Arg
import Verif.Model.Geometry
import Verif.Model.Inertia
import Verif.Model.Tables

/-!
# parameter_sets.py

Parameter sets: construction, conversion, files, mass centres, inertia tensors and the
shapes drawn by the plot methods.  Colours, axes and labels of the plots are not modelled.
-/

namespace BP

open Real Matrix

/-! ## Values and classes -/

/-- The Python type of a parameter value as far as the code looks at it: `float`,
`numpy.float64` (a subclass of `float`), anything else. (parameter_sets.py:105-114) -/
inductive PyTy where
  | pyFloat
  | npFloat
  | other
  deriving DecidableEq

/-- A parameter value.  Simplification: values that are not numbers are not modelled apart
from being `other`; nan and infinities are not modelled. (parameter_sets.py:105-120) -/
structure SVal where
  ty : PyTy
  val : ℝ

/-- The five concrete classes, parameter_sets.py:222, 872, 983, 1610, 1706. -/
inductive SetKind where
  | meijaard
  | feedback
  | moore2019
  | moore2012
  | riderLean
  deriving DecidableEq

/-- parameter_sets.py:287-315 (`par_strings`). -/
def meijaardStrings : Dict String :=
  [("IBxx", "I_{Bxx}"), ("IBxz", "I_{Bxz}"), ("IByy", "I_{Byy}"), ("IBzz", "I_{Bzz}"),
   ("IFxx", "I_{Fxx}"), ("IFyy", "I_{Fyy}"), ("IHxx", "I_{Hxx}"), ("IHxz", "I_{Hxz}"),
   ("IHyy", "I_{Hyy}"), ("IHzz", "I_{Hzz}"), ("IRxx", "I_{Rxx}"), ("IRyy", "I_{Ryy}"),
   ("c", "c"), ("g", "g"), ("lam", "\\lambda"), ("mB", "m_B"), ("mF", "m_F"), ("mH", "m_H"),
   ("mR", "m_R"), ("rF", "r_F"), ("rR", "r_R"), ("v", "v"), ("w", "w"), ("xB", "x_B"),
   ("xH", "x_H"), ("zB", "z_B"), ("zH", "z_H")]

/-- parameter_sets.py:941-977 (`par_strings`). -/
def feedbackStrings : Dict String :=
  [("IBxx", "I_{Bxx}"), ("IBxz", "I_{Bxz}"), ("IByy", "I_{Byy}"), ("IBzz", "I_{Bzz}"),
   ("IFxx", "I_{Fxx}"), ("IFyy", "I_{Fyy}"), ("IHxx", "I_{Hxx}"), ("IHxz", "I_{Hxz}"),
   ("IHyy", "I_{Hyy}"), ("IHzz", "I_{Hzz}"), ("IRxx", "I_{Rxx}"), ("IRyy", "I_{Ryy}"),
   ("c", "c"), ("g", "g"), ("kTdel_del", "k_{T_{\\delta}\\delta}"),
   ("kTdel_deld", "k_{T_{\\delta}\\dot{\\delta}}"), ("kTdel_phi", "k_{T_{\\delta}\\phi}"),
   ("kTdel_phid", "k_{T_{\\delta}\\dot{\\phi}}"), ("kTphi_del", "k_{T_{\\phi}\\delta}"),
   ("kTphi_deld", "k_{T_{\\phi}\\dot{\\delta}}"), ("kTphi_phi", "k_{T_{\\phi}\\phi}"),
   ("kTphi_phid", "k_{T_{\\phi}\\dot{\\phi}}"), ("lam", "\\lambda"), ("mB", "m_B"),
   ("mF", "m_F"), ("mH", "m_H"), ("mR", "m_R"), ("rF", "r_F"), ("rR", "r_R"), ("v", "v"),
   ("w", "w"), ("xB", "x_B"), ("xH", "x_H"), ("zB", "z_B"), ("zH", "z_H")]

/-- parameter_sets.py:1036-1073 (`par_strings`). -/
def moore2019Strings : Dict String :=
  [("alphaD", "\\alpha_D"), ("alphaH", "\\alpha_H"), ("alphaP", "\\alpha_P"), ("c", "c"),
   ("g", "g"), ("kDaa", "k_{Daa}"), ("kDbb", "k_{Dbb}"), ("kDyy", "k_{Dyy}"),
   ("kFaa", "k_{Faa}"), ("kFyy", "k_{Fyy}"), ("kHaa", "k_{Haa}"), ("kHbb", "k_{Hbb}"),
   ("kHyy", "k_{Hyy}"), ("kPaa", "k_{Paa}"), ("kPbb", "k_{Pbb}"), ("kPyy", "k_{Pyy}"),
   ("kRaa", "k_{Raa}"), ("kRyy", "k_{Ryy}"), ("lP", "l_P"), ("lam", "\\lambda"), ("mD", "m_D"),
   ("mF", "m_F"), ("mH", "m_H"), ("mP", "m_B"), ("mR", "m_R"), ("rF", "r_F"), ("rR", "r_R"),
   ("v", "v"), ("w", "w"), ("wP", "w_P"), ("xD", "x_D"), ("xH", "x_H"), ("xP", "x_P"),
   ("zD", "z_D"), ("zH", "z-H"), ("zP", "z_P")]

/-- parameter_sets.py:1673-1701 (`par_strings`). -/
def moore2012Strings : Dict String :=
  [("d1", "d_1"), ("d2", "d_2"), ("d3", "d_3"), ("g", "g"), ("ic11", "I_{C11}"),
   ("ic22", "I_{C22}"), ("ic31", "I_{C31}"), ("ic33", "I_{C33}"), ("id11", "I_{D11}"),
   ("id22", "I_{D22}"), ("ie11", "I_{D11}"), ("ie22", "I_{E22}"), ("ie31", "I_{E31}"),
   ("ie33", "I_{E33}"), ("if11", "I_{F11}"), ("if22", "I_{F22}"), ("l1", "l_1"), ("l2", "l_2"),
   ("l3", "l_3"), ("l4", "l_4"), ("mc", "m_C"), ("md", "m_D"), ("me", "m_E"), ("mf", "m_F"),
   ("rf", "r_f"), ("rr", "r_r"), ("v", "v")]

/-- parameter_sets.py:1775-1813 (`par_strings`). -/
def riderLeanStrings : Dict String :=
  [("c9", "c_9"), ("d1", "d_1"), ("d2", "d_2"), ("d3", "d_3"), ("d4", "d_4"), ("g", "g"),
   ("ic11", "I_{C11}"), ("ic22", "I_{C22}"), ("ic31", "I_{C31}"), ("ic33", "I_{C33}"),
   ("id11", "I_{D11}"), ("id22", "I_{D22}"), ("ie11", "I_{D11}"), ("ie22", "I_{E22}"),
   ("ie31", "I_{E31}"), ("ie33", "I_{E33}"), ("if11", "I_{F11}"), ("if22", "I_{F22}"),
   ("ig11", "I_{G11}"), ("ig22", "I_{G22}"), ("ig31", "I_{G31}"), ("ig33", "I_{G33}"),
   ("k9", "k_9"), ("l1", "l_1"), ("l2", "l_2"), ("l3", "l_3"), ("l4", "l_4"), ("l5", "l_5"),
   ("l6", "l_6"), ("mc", "m_C"), ("md", "m_D"), ("me", "m_E"), ("mf", "m_F"), ("mg", "m_G"),
   ("rf", "r_f"), ("rr", "r_r"), ("v", "v")]

/-- parameter_sets.py:118-119: the class name up to `ParameterSet`. -/
def SetKind.name : SetKind → String
  | .meijaard => "Meijaard2007"
  | .feedback => "Meijaard2007WithFeedback"
  | .moore2019 => "Moore2019"
  | .moore2012 => "Moore2012"
  | .riderLean => "MooreRiderLean2012"

/-- The class attribute `par_strings`. (parameter_sets.py:222-318, 868-980, 985-1076, 1615-1704, 1712-1816) -/
def SetKind.parStrings : SetKind → Dict String
  | .meijaard => meijaardStrings
  | .feedback => feedbackStrings
  | .moore2019 => moore2019Strings
  | .moore2012 => moore2012Strings
  | .riderLean => riderLeanStrings

/-- The class attribute `body_labels`, parameter_sets.py:317, 979, 1075, 1703, 1815. -/
def SetKind.bodyLabels : SetKind → List String
  | .meijaard => ["B", "F", "H", "R"]
  | .feedback => ["B", "F", "H", "R"]
  | .moore2019 => ["D", "F", "H", "P", "R"]
  | .moore2012 => ["C", "D", "E", "F"]
  | .riderLean => ["C", "D", "E", "F", "G"]

/-- A parameter set object.  `rider` is the attribute `includes_rider`; `none` is Python's
`None`, and also stands for the missing attribute of the classes without it. (parameter_sets.py:116-120) -/
structure PSet where
  kind : SetKind
  parameters : Dict SVal
  rider : Option Bool

/-! ## Construction -/

/-- parameter_sets.py:105-114.  `isinstance(x, float)` holds for both float types. -/
def checkParameters (p : Dict SVal) : Dict String → Except PyErr Unit
  | [] => .ok ()
  | (k, _) :: rest =>
    match p.find? k with
    | none => .error .valueError
    | some v => if v.ty = .other then .error .valueError else checkParameters p rest

/-- parameter_sets.py:116-119 with 319-323, 981-982, 1077-1080, 1705-1709, 1817-1820.  The
set keeps the dictionary itself, not a copy; later changes made to it by the caller are in
Model/Objects. -/
def construct (kind : SetKind) (p : Dict SVal) (rider : Option Bool) : Except PyErr PSet :=
  match checkParameters p kind.parStrings with
  | .error e => .error e
  | .ok () => .ok ⟨kind, p, rider⟩

/-! ## Conversion -/

/-- The numbers stored in a dictionary of parameters. (parameter_sets.py:325-391, 1082-1147) -/
def nums (p : Dict SVal) : Dict ℝ := p.map fun e => (e.1, e.2.val)

/-- parameter_sets.py:353-354 -/
def gainNames : List String :=
  ["kTphi_phi", "kTphi_del", "kTphi_phid", "kTphi_deld",
   "kTdel_phi", "kTdel_del", "kTdel_phid", "kTdel_deld"]

/-- The keys whose values conversions.py:84, 97-101, 115-119 take out of a numpy array. -/
def arrayKeys : List String :=
  ["mB", "xB", "yB", "zB", "IBxx", "IByy", "IBzz", "IBxz", "IHxx", "IHyy", "IHzz", "IHxz"]

/-- The keys of conversions.py:128-130, 139-141 with the two keys they multiply. -/
def productKeys : List (String × String × String) :=
  [("IRxx", "mR", "kRaa"), ("IRyy", "mR", "kRyy"), ("IRzz", "mR", "kRaa"),
   ("IFxx", "mF", "kFaa"), ("IFyy", "mF", "kFyy"), ("IFzz", "mF", "kFaa")]

/-- The Python type of the value stored in `p` under `k`. (parameter_sets.py:325-391, 1082-1147) -/
def tyOf (p : Dict SVal) (k : String) : PyTy := (p.find? k).elim .other SVal.ty

/-- The Python type of the entry `k` of the converted dictionary: taken from an array, a
product (numpy if one factor is), or copied. (parameter_sets.py:325-391, 1082-1147) -/
def convertedTy (p : Dict SVal) (k : String) : PyTy :=
  if k ∈ arrayKeys then .npFloat
  else match productKeys.find? (fun e => e.1 = k) with
    | some (_, a, b) => if tyOf p a = .npFloat ∨ tyOf p b = .npFloat then .npFloat else .pyFloat
    | none => tyOf p k

/-- conversions.py:52-142 on a dictionary of Python values.  Extra keys holding things that
are not numbers are not modelled. -/
noncomputable def convertValues (p : Dict SVal) : Except PyErr (Dict SVal) :=
  match convertPrincipalToBenchmark (nums p) with
  | .error e => .error e
  | .ok b => .ok (b.map fun e => (e.1, ⟨convertedTy p e.1, e.2⟩))

/-- parameter_sets.py:149-173, 325-361, 1102-1147.  `benchmarkToMoore` is the function of
the external package dtk. -/
noncomputable def toParameterization (benchmarkToMoore : Dict SVal → Except PyErr (Dict SVal))
    (s : PSet) (name : String) : Except PyErr PSet :=
  if name = s.kind.name then .ok s
  else match s.kind with
    | .meijaard | .feedback =>
      if name = "Moore2012" then
        match benchmarkToMoore s.parameters with
        | .error e => .error e
        | .ok q =>
          match s.parameters.get "v" with
          | .error e => .error e
          | .ok v => construct .moore2012 (q.set "v" v) s.rider
      else if name = "Meijaard2007WithFeedback" then
        construct .feedback
          (gainNames.foldl (fun par gain => par.set gain ⟨.pyFloat, 0⟩) s.parameters) s.rider
      else .error .valueError
    | .moore2019 =>
      if name = "Meijaard2007" then
        match convertValues s.parameters with
        | .error e => .error e
        | .ok b => construct .meijaard b (some true)
      else if name = "Meijaard2007WithFeedback" then
        match convertValues s.parameters with
        | .error e => .error e
        | .ok b => construct .feedback b (some true)
      else .error .valueError
    | .moore2012 | .riderLean => .error .valueError

/-! ## Files -/

/-- The YAML document written by parameter_sets.py:184-192 (description and parameters are
always empty strings). -/
structure YamlDoc where
  parameterization : String
  rider : Option Bool
  values : Dict SVal

/-- `yaml.dump` sorts the keys of a mapping. (parameter_sets.py:175-192) -/
def yamlSort (d : Dict SVal) : Dict SVal := d.mergeSort fun a b => decide (a.1 ≤ b.1)

/-- parameter_sets.py:184-192 -/
def toYaml (s : PSet) : YamlDoc := ⟨s.kind.name, none, yamlSort s.parameters⟩

/-- `yaml.load(f, Loader=yaml.FullLoader)`: a float is read back as the same float (PyYAML
writes its `repr`); a numpy scalar is written with a `python/object/apply` tag, which this
loader refuses since PyYAML 5.4. (parameter_sets.py:122-128) -/
def yamlLoad (d : YamlDoc) : Except PyErr YamlDoc :=
  if d.values.any (fun e => decide (e.2.ty = .npFloat)) then .error .yamlError else .ok d

/-- parameter_sets.py:121-128, 363-371.  The first one calls the class with the dictionary
only, which `Moore2012ParameterSet` refuses. -/
def fromYaml (kind : SetKind) (d : YamlDoc) : Except PyErr PSet :=
  match yamlLoad d with
  | .error e => .error e
  | .ok d =>
    match kind with
    | .meijaard | .feedback => construct kind d.values d.rider
    | .moore2012 => .error .typeError
    | .moore2019 | .riderLean => construct kind d.values none

/-- parameter_sets.py:204-208, one line. -/
def iniLine (k : Text) (v : ℚ) : Text := k ++ '=' :: fixed v 16 ++ ['\n']

/-- parameter_sets.py:204-208: the text of the file. -/
def toIni (p : List (Text × ℚ)) : Text := p.flatMap fun e => iniLine e.1 e.2

/-- parameter_sets.py:210-219: the cells of the rows of the HTML table, label and value
(the markup around them is left out). -/
def htmlRows (strings : Dict String) (p : Dict ℚ) : Except PyErr (List (String × Text)) :=
  strings.mapM fun e => (p.get e.1).map fun v => (e.2, fixed v 3)

/-! ## Mass centres and inertia tensors -/

/-- parameter_sets.py:373-391 (Meijaard2007 and the subclass with feedback) and 1082-1100
(Moore2019); the other classes do not have the methods using it. -/
def derived (kind : SetKind) (p : Dict ℝ) : Except PyErr (Dict ℝ) :=
  let v := fun k => Dict.getD p k 0
  match kind with
  | .meijaard | .feedback =>
    match Dict.require p ["IFxx", "IRxx", "w", "rF", "rR"] with
    | .error e => .error e
    | .ok () => .ok [("IFxz", 0), ("IFzz", v "IFxx"), ("IRxz", 0), ("IRzz", v "IRxx"), ("xF", v "w"),
        ("xR", 0), ("yB", 0), ("yF", 0), ("yH", 0), ("yR", 0), ("zF", -v "rF"), ("zR", -v "rR")]
  | .moore2019 =>
    match Dict.require p ["w", "rR", "rF", "kRaa", "kFaa"] with
    | .error e => .error e
    | .ok () => .ok [("alphaF", 0), ("alphaR", 0), ("yD", 0), ("yP", 0), ("yH", 0), ("yR", 0),
        ("yF", 0), ("xR", 0), ("xF", v "w"), ("zR", -v "rR"), ("zF", -v "rF"), ("kRbb", v "kRaa"),
        ("kFbb", v "kFaa")]
  | .moore2012 | .riderLean => .error .attributeError

/-- parameter_sets.py:417-418, 496-497, ...: the stored parameters updated with the derived
ones. -/
def extended (kind : SetKind) (p : Dict ℝ) : Except PyErr (Dict ℝ) :=
  (derived kind p).map fun e => p.update e

/-- parameter_sets.py:393-426, 1584-1607. -/
def formMassCenterVector (kind : SetKind) (p : Dict ℝ) (body : String) : Except PyErr Vec3 :=
  match extended kind p with
  | .error e => .error e
  | .ok q =>
    (q.get ("x" ++ body)).bind fun x => (q.get ("y" ++ body)).bind fun y =>
      (q.get ("z" ++ body)).map fun z => ![x, y, z]

/-- One round of the loop of parameter_sets.py:458-461. -/
def massAndCenter (kind : SetKind) (p : Dict ℝ) (body : String) : Except PyErr (ℝ × Vec3) :=
  match p.get ("m" ++ body) with
  | .error e => .error e
  | .ok m => (formMassCenterVector kind p body).map fun r => (m, r)

/-- parameter_sets.py:453-467, 1568-1582.  With no body `np.sum(products, axis=1)` of
`total_com` raises numpy's AxisError, a ValueError. -/
noncomputable def massCenterOf (kind : SetKind) (p : Dict ℝ) (bodies : List String) :
    Except PyErr Vec3 :=
  match bodies with
  | [] => .error .valueError
  | [b] => formMassCenterVector kind p b
  | bs => (bs.mapM (massAndCenter kind p)).map fun l => (totalCom l).2

/-- parameter_sets.py:469-509 (Meijaard2007 and the subclass with feedback). -/
def formInertiaTensor (kind : SetKind) (p : Dict ℝ) (body : String) : Except PyErr Mat3 :=
  if kind = .meijaard ∨ kind = .feedback then
    match extended kind p with
    | .error e => .error e
    | .ok q =>
      (q.get ("I" ++ body ++ "xx")).bind fun xx => (q.get ("I" ++ body ++ "xz")).bind fun xz =>
        (q.get ("I" ++ body ++ "yy")).bind fun yy => (q.get ("I" ++ body ++ "zz")).map fun zz =>
          !![xx, 0, xz; 0, yy, 0; xz, 0, zz]
  else .error .attributeError

/-! ## Drawn shapes -/

/-- `np.delete(np.delete(I, 1, axis=1), 1, axis=0)`, parameter_sets.py:635 -/
def xzPlane (I : Mat3) : Matrix (Fin 2) (Fin 2) ℝ := !![I 0 0, I 0 2; I 2 0, I 2 2]

/-- parameter_sets.py:628-654 for a tensor, a mass and a moment `Iyy`; the eigenvalues
`evals` and the columns of `evecs` are numpy's.  `arctan2(y, x)` is the argument of x + iy. -/
noncomputable def planarRadii (evals : Fin 2 → ℝ) (evecs : Matrix (Fin 2) (Fin 2) ℝ) (m Iyy : ℝ) :
    ℝ × ℝ × ℝ × ℝ :=
  let lo : Fin 2 := if evals 1 < evals 0 then 1 else 0
  let hi : Fin 2 := if evals 1 < evals 0 then 0 else 1
  let angleToMax := Complex.arg ⟨evecs 0 hi, -evecs 1 hi⟩
  (√(evals hi / m), √(evals lo / m), √(Iyy / m), angleToMax)

/-- A `matplotlib.patches.Ellipse`: centre, `width`, `height`, `angle` in degrees.
(parameter_sets.py:749-795, 1432-1480) -/
structure EllipsePatch where
  cx : ℝ
  cz : ℝ
  width : ℝ
  height : ℝ
  angle : ℝ

/-- parameter_sets.py:782-789, 1464-1472. -/
noncomputable def ellipsePatch (x z kaa kbb kyy alpha : ℝ) : EllipsePatch :=
  ⟨x, z, √(5 / 2 * (-kaa ^ 2 + kyy ^ 2 + kbb ^ 2)), √(5 / 2 * (kaa ^ 2 + kyy ^ 2 - kbb ^ 2)),
    -(alpha * 180 / π)⟩

/-- parameter_sets.py:699-709, 1414-1424: the end points of the two lines. -/
noncomputable def gyrationLines (x z kaa kbb alpha : ℝ) : List ((ℝ × ℝ) × (ℝ × ℝ)) :=
  [((x - kbb * cos (-alpha), z - kbb * sin (-alpha)), (x + kbb * cos (-alpha), z + kbb * sin (-alpha))),
   ((x - kaa * cos (-alpha - π / 2), z - kaa * sin (-alpha - π / 2)),
    (x + kaa * cos (-alpha - π / 2), z + kaa * sin (-alpha - π / 2)))]

/-- parameter_sets.py:1217-1231: the points of the closed polygon. -/
noncomputable def personDiamond (xP zP wP lP alphaP : ℝ) : List (ℝ × ℝ) :=
  [(xP + wP / 2 * cos (-alphaP), zP + wP / 2 * sin (-alphaP)),
   (xP + -lP / 2 * cos (-alphaP + π / 2), zP + -lP / 2 * sin (-alphaP + π / 2)),
   (xP + -wP / 2 * cos (-alphaP), zP + -wP / 2 * sin (-alphaP)),
   (xP + lP / 2 * cos (-alphaP + π / 2), zP + lP / 2 * sin (-alphaP + π / 2)),
   (xP + wP / 2 * cos (-alphaP), zP + wP / 2 * sin (-alphaP))]

/-- parameter_sets.py:48-58 and 61-67: the wheel circles (centre and radius), and the
dashed line drawn for the steer axis. -/
noncomputable def wheelCircles (w rR rF : ℝ) : List ((ℝ × ℝ) × ℝ) :=
  [((0, -rR), rR), ((w, -rF), rF)]

/-- parameter_sets.py:64-67 for the four points of `fundamental_geometry_plot_data`. -/
noncomputable def steerAxisLine (pts : List (ℝ × ℝ)) : (ℝ × ℝ) × (ℝ × ℝ) :=
  let x := fun i => (pts.getD i (0, 0)).1
  let z := fun i => (pts.getD i (0, 0)).2
  ((x 2, z 2), (x 2 - z 2 * (x 2 - x 1) / (-z 1 + z 2), 0))

end BP
