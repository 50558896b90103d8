import Verif.Py
import Mathlib.Analysis.SpecialFunctions.Trigonometric.Basic
import Mathlib.LinearAlgebra.Matrix.Notation

/-!
# app.py and plot.py

The callbacks of the web app on the data they receive, and the ellipse data of plot.py.  The
layout, `dash` itself and how the two figures are drawn are left out: a figure is represented
by what it is drawn from.
-/

namespace BP

open Real

/-- `np.linspace(a, b, n)`. (app.py:358) -/
noncomputable def linspace (a b : ℝ) (n : ℕ) : List ℝ :=
  (List.range n).map fun i : ℕ => a + (i : ℝ) * ((b - a) / ((n - 1 : ℕ) : ℝ))

/-! ## plot.py -/

/-- plot.py:102-118: the points of the curve.  For `N = 1` the step of `linspace` is not used. -/
noncomputable def ellipsePlotData (xc yc : ℝ) (ax1 ax2 : Fin 2 → ℝ) (a b : ℝ) (n : ℕ) :
    List (ℝ × ℝ) :=
  (linspace 0 (2 * π) n).map fun t =>
    (ax1 0 * (a * cos t) + ax2 0 * (b * sin t) + xc, ax1 1 * (a * cos t) + ax2 1 * (b * sin t) + yc)

/-! ## app.py -/

/-- app.py:42-47. -/
def parList : List String :=
  ["rF", "mF", "IFxx", "IFyy", "rR", "mR", "IRxx", "IRyy", "w", "c", "lam", "g", "xB", "zB", "mB",
   "IBxx", "IByy", "IBzz", "IBxz", "xH", "zH", "mH", "IHxx", "IHyy", "IHzz", "IHxz"]

/-- app.py:79-82. -/
def wheelLabels : List String :=
  ["Radius [m]:", "Mass [kg]:", "Moment Ixx [kg*m²]:", "Moment Iyy [kg*m²]:"]

/-- app.py:88-94. -/
def frameLabels : List String :=
  ["Center of Mass X [m]:", "Center of Mass Z [m]:", "Total Mass [kg]:", "Moment Ixx [kg*m²]:",
   "Moment Iyy [kg*m²]:", "Moment Izz [kg*m²]:", "Moment Ixz [kg*m²]:"]

/-- app.py:99-102. -/
def generalLabels : List String :=
  ["Wheel Base [m]:", "Trail [m]:", "Steer Axis Tilt [degrees]:", "Gravity [N/kg]:"]

/-- A row of the wheel table (columns fW, rW) or of the frame table (columns rB, fA); a missing
number is `None`. (app.py:261-334) -/
structure Row2 where
  label : String
  fst : Option ℝ
  snd : Option ℝ

/-- A row of the general table. (app.py:261-334) -/
structure Row1 where
  label : String
  data : Option ℝ

/-- `int(x)` of a float. (app.py:317, 358) -/
noncomputable def pyInt (x : ℝ) : ℤ := if 0 ≤ x then ⌊x⌋ else ⌈x⌉

/-- `np.rad2deg`. (app.py:316) -/
noncomputable def rad2deg (x : ℝ) : ℝ := x * 180 / π

/-- `np.deg2rad`. (app.py:369) -/
noncomputable def deg2rad (x : ℝ) : ℝ := x * π / 180

/-- Entry `i` of a list of rows is read from parameter `par_list[i]`. (app.py:280-334) -/
noncomputable def cell (par : Dict ℝ) (i : ℕ) : Option ℝ := par.find? (parList.getD i "")

/-- The zip of labels and two columns, app.py:276-281 and 296-301. -/
def zipRows (labels : List String) (a b : List (Option ℝ)) : List Row2 :=
  ((labels.zip a).zip b).map fun x => ⟨x.1.1, x.1.2, x.2⟩

/-- app.py:263-281: the wheel table. -/
noncomputable def wheelTable (par : Dict ℝ) : List Row2 :=
  zipRows wheelLabels (((List.range 8).filter (· < 4)).map (cell par)) (((List.range 8).filter (¬ · < 4)).map (cell par))

/-- app.py:283-301: the frame table. -/
noncomputable def frameTable (par : Dict ℝ) : List Row2 :=
  zipRows frameLabels (((List.range' 12 14).filter (· < 19)).map (cell par))
    (((List.range' 12 14).filter (¬ · < 19)).map (cell par))

/-- app.py:303-323: the general table.  `np.rad2deg(None)` raises `TypeError`. -/
noncomputable def generalTable (par : Dict ℝ) : Except PyErr (List Row1) :=
  let data := (List.range' 8 4).map (cell par)
  match data.getD 2 none with
  | none => .error .typeError
  | some r =>
    let data := data.set 2 (some (pyInt (rad2deg r) : ℝ))
    .ok ((generalLabels.zip data).map fun x => ⟨x.1, x.2⟩)

/-- app.py:255-325 on the parameters of the chosen bicycle (`new_par`, without
uncertainties). -/
noncomputable def populateTables (par : Dict ℝ) :
    Except PyErr (List Row2 × List Row2 × List Row1) :=
  match generalTable par with
  | .error e => .error e
  | .ok general => .ok (wheelTable par, frameTable par, general)

/-- Reading row `i`, an `IndexError` if there is none. (app.py:339-400) -/
def rowAt {α : Type} (rows : List α) (i : ℕ) : Except PyErr α :=
  match rows[i]? with
  | some r => .ok r
  | none => .error .indexError

/-- app.py:367-385: the list `newP` of names and values, in order.  `float(None)` raises
`TypeError`.  Simplification: a cell holds a number or nothing. -/
noncomputable def newP (wheel frame : List Row2) (general : List Row1) :
    Except PyErr (List (String × Option ℝ)) :=
  (rowAt general 2).bind fun r => match r.data with
  | none => .error .typeError
  | some deg =>
    let general := general.set 2 ⟨r.label, some (deg2rad deg)⟩
    ((List.range 8).mapM fun p =>
      if p < 4 then (rowAt wheel p).map fun r => (parList.getD p "", r.fst)
      else (rowAt wheel (p - 4)).map fun r => (parList.getD p "", r.snd)).bind fun ws =>
    ((List.range' 12 14).mapM fun p =>
      if p < 19 then (rowAt frame (p - 12)).map fun r => (parList.getD p "", r.fst)
      else (rowAt frame (p - 19)).map fun r => (parList.getD p "", r.snd)).bind fun fs =>
    ((List.range' 8 4).mapM fun p =>
      (rowAt general (p - 8)).map fun r => (parList.getD p "", r.data)).bind fun gs =>
    .ok (ws ++ fs ++ gs)

/-- app.py:363-389: the benchmark parameters that the figures are drawn from.  `stored` are
those of the bicycle that was loaded. -/
noncomputable def shownParameters (trigger : String) (stored : Dict (Option ℝ))
    (wheel frame : List Row2) (general : List Row1) : Except PyErr (Dict (Option ℝ)) :=
  if trigger ≠ "bike-dropdown.value" then
    (newP wheel frame general).map fun ps => stored.update ps
  else .ok stored

/-- A figure, by what it is drawn from. (app.py:339-400) -/
inductive Figure where
  /-- app.py:393-394 -/
  | geometry (par : Dict (Option ℝ)) (centerOfMass inertiaEllipse : Bool)
  /-- app.py:396-397 -/
  | eigenvalues (par : Dict (Option ℝ)) (speeds : List ℝ) (stability : Bool)

/-- app.py:355-358: the speeds.  `int` of a negative number of steps makes `linspace` raise
`ValueError`. -/
noncomputable def appSpeeds (lo hi : ℝ) : Except PyErr (List ℝ) :=
  let n := pyInt ((hi - lo) / 0.1)
  if n < 0 then .error .valueError else .ok (linspace lo hi n.toNat)

/-- app.py:331-399: which figure `dash` puts into which graph.  The returned values belong to
the `Output`s of the decorator (lines 331-332) in order. -/
noncomputable def plotUpdate (trigger : String) (stored : Dict (Option ℝ))
    (wheel frame : List Row2) (general : List Row1) (options : List String) (slider : ℝ × ℝ) :
    Except PyErr (List (String × Figure)) :=
  (appSpeeds slider.1 slider.2).bind fun speeds =>
  (shownParameters trigger stored wheel frame general).bind fun par =>
    let geo := Figure.geometry par (options.contains "centers") (options.contains "ellipse")
    let eigen := Figure.eigenvalues par speeds (options.contains "stability")
    .ok (["geometry-plot", "eigen-plot"].zip [eigen, geo])

end BP
