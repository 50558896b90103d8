import Verif.Model.MainPlots

/-!
# plot.py:8-99 and main.py:1447-1529: comparison of bicycles and of speeds

`numpy.linalg.eig`, the colour map of matplotlib and `dtk.control.bode` are parameters.  A figure
is represented by the lines of its axes.  The figure that is left behind by a call that raises
is not modelled, nor are limits, ticks and grids.
-/

namespace BP

open Matrix

/-! ## plot_eigenvalues, plot.py:50-99 -/

/-- A line of the axes with its style. (plot.py:51-99) -/
structure StyledLine where
  label : String
  color : String
  style : String
  xs : List ℝ
  ys : List ℝ

/-- `l[i]` for a natural number `i`. (plot.py:51-99) -/
def listItem {α : Type*} (l : List α) (i : ℕ) : Except PyErr α :=
  match l[i]? with
  | none => .error .indexError
  | some a => .ok a

/-- plot.py:77-81: the colours of `n` bicycles. -/
noncomputable def rainbow (cmap : ℝ → String) (n : ℕ) : List String :=
  (List.range n).map fun i : ℕ => cmap (1 * (i : ℝ) / (n : ℝ))

/-- plot.py:75-81: an empty list of colours counts as none. -/
noncomputable def bikeColors (cmap : ℝ → String) (n : ℕ) (colors : List String) : List String :=
  if colors = [] then rainbow cmap n else colors

/-- plot.py:83-84. -/
def bikeStyles (n : ℕ) (linestyles : List String) : List String :=
  if linestyles = [] then List.replicate n "-" else linestyles

/-- A curve drawn over the speeds. (plot.py:51-99) -/
def styled (color style : String) (xs : List ℝ) (c : Curve) : StyledLine :=
  ⟨c.label, color, style, xs, c.ys⟩

/-- main.py:1295-1296 and 1308-1309: the line of zeros, with the format `'k-'`. -/
def zeroLine (xs : List ℝ) : StyledLine :=
  ⟨"_nolegend_", "k", "-", xs, xs.map fun _ => 0⟩

/-- main.py:1291-1321 with `generic=True`: the lines that one bicycle adds.  The argument
`linestyle` is used with `largest` only. -/
noncomputable def bikeLines (eig : Eig 4) (params : Dict (Dict ℝ)) (name color linestyle : String)
    (largest : Bool) (speeds : List ℝ) : Except PyErr (List StyledLine) :=
  (plotEigenvaluesVsSpeed eig params name true largest speeds).map fun f =>
    if largest then f.2.map (styled color linestyle f.1) ++ [zeroLine f.1]
    else (f.2.take 4).map (styled color "--" f.1) ++ [zeroLine f.1] ++
      (f.2.drop 4).map (styled color "-" f.1)

/-- plot.py:86-95: the loop over the bicycles (their names and parameter sets). -/
noncomputable def addBikes (eig : Eig 4) (cs ls : List String) (largest : Bool) (speeds : List ℝ) :
    List (String × Dict (Dict ℝ)) → ℕ → List StyledLine → Except PyErr (List StyledLine)
  | [], _, fig => .ok fig
  | b :: bikes, i, fig =>
    (listItem cs i).bind fun color =>
      (listItem ls i).bind fun style =>
        (bikeLines eig b.2 b.1 color style largest speeds).bind fun lines =>
          addBikes eig cs ls largest speeds bikes (i + 1) (fig ++ lines)

/-- plot.py:50-99: the lines of the figure.  Without bicycles `fig` is not assigned. -/
noncomputable def plotEigenvalues (eig : Eig 4) (cmap : ℝ → String)
    (bikes : List (String × Dict (Dict ℝ))) (speeds : List ℝ) (colors linestyles : List String)
    (largest : Bool) : Except PyErr (List StyledLine) :=
  if bikes = [] then .error .unboundLocal
  else addBikes eig (bikeColors cmap bikes.length colors) (bikeStyles bikes.length linestyles)
    largest speeds bikes 0 []

/-! ## plot_bode, main.py:1447-1489 -/

/-- `dtk.control.bode`: the magnitudes in dB and the phases in degrees of a system at the given
frequencies. (plot.py:7-48, main.py:1491-1529) -/
abbrev Bode := Siso → List ℝ → List ℝ × List ℝ

/-- A line of the two axes. (plot.py:7-48, main.py:1491-1529) -/
structure BodeLine where
  label : String
  ys : List ℝ

/-- A figure with the two axes of a Bode plot: `ax1` (magnitudes) and `ax2` (phases).
(plot.py:7-48, main.py:1491-1529) -/
structure BodeFigure where
  title : String
  mags : List BodeLine
  phases : List BodeLine

/-- A Python index (which may be negative) into a list of length `n`. (plot.py:7-48) -/
def pyIndex (n : ℕ) (i : ℤ) : Except PyErr (Fin n) :=
  if h : 0 ≤ i ∧ i < n then .ok ⟨i.toNat, by omega⟩
  else if h : -(n : ℤ) ≤ i ∧ i < 0 then .ok ⟨(i + n).toNat, by omega⟩
  else .error .indexError

/-- main.py:1479: `np.logspace(0, 2, 1000)`. -/
noncomputable def bodeFrequencies : List ℝ :=
  (List.range 1000).map fun i : ℕ => (10 : ℝ) ^ (2 * (i : ℝ) / 999)

/-- main.py:1481, 1482. -/
def outputNames : Fin 4 → String := ![
  "Roll Angle", "Steer Angle", "Roll Rate", "Steer Rate"]

@[inherit_doc outputNames]
def inputNames : Fin 2 → String := !["Roll Torque", "Steer Torque"]

/-- The title and the lines that the external `control.bode` adds to a figure (`none`: a figure
without axes). (plot.py:7-48, main.py:1491-1529) -/
def addBode (title label : String) (r : List ℝ × List ℝ) (fig : Option BodeFigure) : BodeFigure :=
  match fig with
  | none => ⟨title, [⟨label, r.1⟩], [⟨label, r.2⟩]⟩
  | some f => ⟨title, f.mags ++ [⟨label, r.1⟩], f.phases ++ [⟨label, r.2⟩]⟩

/-- main.py:1474-1489: the bicycle's parameter sets after the call and the figure.  The state
space is computed (which modifies the parameters) before the indices are looked up. -/
noncomputable def plotBode (bode : Bode) (params : Dict (Dict ℝ)) (speed : ℝ) (u y : ℤ)
    (label : String) (fig : Option BodeFigure) : Dict (Dict ℝ) × Except PyErr BodeFigure :=
  match bikeStateSpace params speed .yes with
  | (params', .error e) => (params', .error e)
  | (params', .ok _) =>
    (params', (pyIndex 2 u).bind fun u => (pyIndex 4 y).bind fun y =>
      (bodeSystem params speed u y).2.map fun s =>
        addBode (inputNames u ++ " to " ++ outputNames y) label (bode s bodeFrequencies) fig)

/-! ## compare_bode_speeds, main.py:1491-1529 -/

/-- main.py:1518-1519: one call for each speed, on the same object. -/
noncomputable def bodeSpeeds (bode : Bode) (str : ℝ → String) (u y : ℤ) :
    List ℝ → Dict (Dict ℝ) → Option BodeFigure → Dict (Dict ℝ) × Except PyErr (Option BodeFigure)
  | [], params, fig => (params, .ok fig)
  | v :: vs, params, fig =>
    match plotBode bode params v u y (str v ++ " m/s") fig with
    | (params', .error e) => (params', .error e)
    | (params', .ok f) => bodeSpeeds bode str u y vs params' (some f)

/-- main.py:1522-1526 and plot.py:41-45: all phase lines of the figure are aligned, whoever drew
them.  A figure to which `control.bode` has added nothing has no attribute `ax2`. -/
noncomputable def alignFigure (fig : Option BodeFigure) : Except PyErr BodeFigure :=
  match fig with
  | none => .error .attributeError
  | some f => (f.phases.mapM fun l : BodeLine => (alignPhase l.ys).map fun ys => BodeLine.mk l.label ys).map
      fun phases => { f with phases := phases }

/-- main.py:1491-1529. -/
noncomputable def compareBodeSpeeds (bode : Bode) (str : ℝ → String) (params : Dict (Dict ℝ))
    (speeds : List ℝ) (u y : ℤ) (fig : Option BodeFigure) :
    Dict (Dict ℝ) × Except PyErr BodeFigure :=
  match bodeSpeeds bode str u y speeds params fig with
  | (params', .error e) => (params', .error e)
  | (params', .ok f) => (params', alignFigure f)

/-! ## compare_bode_bicycles, plot.py:8-47 -/

/-- The Bicycle objects: the name and the parameter sets of each. (plot.py:7-48) -/
abbrev Garage := ℕ → String × Dict (Dict ℝ)

/-- plot.py:37-38: one call for each reference in the list; the same object may occur more than
once. -/
noncomputable def bodeBikes (bode : Bode) (speed : ℝ) (u y : ℤ) :
    List ℕ → Garage → Option BodeFigure → Garage × Except PyErr (Option BodeFigure)
  | [], garage, fig => (garage, .ok fig)
  | b :: bs, garage, fig =>
    match plotBode bode (garage b).2 speed u y (garage b).1 fig with
    | (params', .error e) => (Function.update garage b ((garage b).1, params'), .error e)
    | (params', .ok f) =>
      bodeBikes bode speed u y bs (Function.update garage b ((garage b).1, params')) (some f)

/-- plot.py:8-47. -/
noncomputable def compareBodeBicycles (bode : Bode) (garage : Garage) (bikes : List ℕ) (speed : ℝ)
    (u y : ℤ) (fig : Option BodeFigure) : Garage × Except PyErr BodeFigure :=
  match bodeBikes bode speed u y bikes garage fig with
  | (garage', .error e) => (garage', .error e)
  | (garage', .ok f) => (garage', alignFigure f)

end BP
