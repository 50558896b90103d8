import Verif.Model.ParameterSets
import Verif.Model.Geometry

/-!
# Model: the plots of the parameter sets (`parameter_sets.py`)

A matplotlib `Axes` is modelled by what the code adds to it, in order, and by the attributes the
code reads or sets.  A plotting method changes the axes it is given and returns normally or
raises; what was drawn before an exception stays on the axes.
-/

namespace BP

open Real Matrix

/-- What the code adds to an axes: `ax.axhline`, `patches.Circle`, `patches.Wedge` (angles in
degrees), `patches.Ellipse`, `ax.plot` (a polyline) and `ax.text`.  Colours are matplotlib
colour strings; an empty string stands for "no colour given".  Line widths, line styles and
transparency are not modelled. (parameter_sets.py:24-70, 511-866) -/
inductive Artist where
  | hline (z : ℝ) (color : String)
  | circle (center : ℝ × ℝ) (radius : ℝ) (color : String)
  | wedge (center : ℝ × ℝ) (radius theta1 theta2 : ℝ) (color : String)
  | ellipse (e : EllipsePatch) (color : String)
  | line (points : List (ℝ × ℝ)) (color : String)
  | text (pos : ℝ × ℝ) (label : String)

/-- The state of an axes that the code depends on. (parameter_sets.py:130-147, 511-866) -/
structure Axes where
  artists : List Artist
  inverted : Bool
  equalAspect : Bool
  xlabel : String
  ylabel : String

/-- `plt.subplots()`: an empty axes. (parameter_sets.py:511-866) -/
def Axes.new : Axes := ⟨[], false, false, "", ""⟩

/-- `ax.add_patch`, `ax.plot`, `ax.text`, `ax.axhline`, one after the other. (parameter_sets.py:511-866) -/
def Axes.add (ax : Axes) (l : List Artist) : Axes := { ax with artists := ax.artists ++ l }

/-- parameter_sets.py:130-135.  `colors` is `rcParams['axes.prop_cycle'].by_key()['color']`. -/
def bodyColorsFrom (colors : List String) : ℕ → List String → Except PyErr (Dict String)
  | _, [] => .ok []
  | i, b :: bs =>
    match colors[i]? with
    | none => .error .indexError
    | some c => (bodyColorsFrom colors (i + 1) bs).map fun d => (b, c) :: d

/-- parameter_sets.py:130-135: the attribute `body_colors` of a new set.  The labels of a class
are distinct, so no key is assigned twice. -/
def bodyColors (colors : List String) (kind : SetKind) : Except PyErr (Dict String) :=
  bodyColorsFrom colors 0 kind.bodyLabels

/-- parameter_sets.py:137-140 -/
def invertYaxis (ax : Axes) : Axes :=
  if ax.inverted then ax else { ax with inverted := true }

/-- parameter_sets.py:142-147; `autoscale` is not modelled. -/
def finalizePlot (ax : Axes) : Axes :=
  { invertYaxis ax with equalAspect := true, xlabel := "$x$ [m]", ylabel := "$z$ [m]" }

/-- parameter_sets.py:24-39; every caller gives a label. -/
def comSymbol (center : ℝ × ℝ) (radius : ℝ) (color label : String) : List Artist :=
  [.wedge center radius 0 90 color, .wedge center radius 180 270 color, .circle center radius "",
   .text (center.1 + radius, center.2 + radius) label]

/-- parameter_sets.py:42-69: the lookups, then the drawing.  When entries are missing, which a
valid set excludes, the code raises after drawing a part; the model raises at once.  When the two
corners of the frame are at the same height the quotient of line 66 is numpy's inf or nan and
the dashed line is not visible; in the model the quotient is 0. -/
noncomputable def geometryArtists (p : Dict ℝ) (showSteerAxis : Bool) : Except PyErr (List Artist) :=
  (Dict.require p ["rR", "w", "rF", "c", "lam"]).map fun _ =>
    let v := fun k => Dict.getD p k 0
    let pts := fundamentalGeometryPlotData (v "w") (v "c") (v "lam") (v "rR") (v "rF")
    let steer := steerAxisLine pts
    .hline 0 "black" :: ((wheelCircles (v "w") (v "rR") (v "rF")).map fun c => .circle c.1 c.2 "") ++
      .line pts "k" :: if showSteerAxis then [.line [steer.1, steer.2] "k"] else []

/-- The four numbers that the two ways of drawing the inertia of a body use:
`_planar_principal_radii_of_gyration` of Meijaard2007 (parameter_sets.py:628-656) and the
stored values of Moore2019 (parameter_sets.py:1400-1403, 1459-1462), in the order `kaa`, `kbb`,
`kyy`, `alpha`.  `eig` is numpy's `eig` of a 2 by 2 matrix. -/
noncomputable def bodyRadii (eig : Matrix (Fin 2) (Fin 2) ℝ → (Fin 2 → ℝ) × Matrix (Fin 2) (Fin 2) ℝ)
    (kind : SetKind) (p : Dict ℝ) (body : String) : Except PyErr (ℝ × ℝ × ℝ × ℝ) :=
  match extended kind p with
  | .error e => .error e
  | .ok q =>
    match kind with
    | .moore2019 =>
      (q.get ("k" ++ body ++ "yy")).bind fun kyy => (q.get ("k" ++ body ++ "aa")).bind fun kaa =>
        (q.get ("k" ++ body ++ "bb")).bind fun kbb => (q.get ("alpha" ++ body)).map fun alpha =>
          (kaa, kbb, kyy, alpha)
    | _ =>
      (formInertiaTensor kind p body).bind fun I =>
        (q.get ("m" ++ body)).bind fun m => (q.get ("I" ++ body ++ "yy")).map fun Iyy =>
          let ev := eig (xzPlane I)
          planarRadii ev.1 ev.2 m Iyy

/-- `p['x{}'.format(body)]` and `p['z{}'.format(body)]` of the extended parameters,
parameter_sets.py:616-617, 690-691, 1337-1338. -/
def bodyXZ (kind : SetKind) (p : Dict ℝ) (body : String) : Except PyErr (ℝ × ℝ) :=
  match extended kind p with
  | .error e => .error e
  | .ok q => (q.get ("x" ++ body)).bind fun x => (q.get ("z" ++ body)).map fun z => (x, z)

/-- parameter_sets.py:618, 1339: the radius of the symbol. -/
noncomputable def symbolRadius (kind : SetKind) (p : Dict ℝ) : Except PyErr ℝ :=
  match kind with
  | .moore2019 => (p.get "w").bind fun w => (p.get "lP").map fun lP => max w lP / 30
  | _ => (p.get "w").map fun w => w / 10

/-- parameter_sets.py:610-621 and 1331-1341. -/
noncomputable def massCenterArtists (kind : SetKind) (p : Dict ℝ) (colors : Dict String)
    (body : String) : Except PyErr (List Artist) :=
  (bodyXZ kind p body).bind fun c => (symbolRadius kind p).bind fun r =>
    (colors.get body).map fun col => comSymbol c r col body

/-- parameter_sets.py:684-709 and 1393-1424. -/
noncomputable def radiiArtists (eig : Matrix (Fin 2) (Fin 2) ℝ → (Fin 2 → ℝ) × Matrix (Fin 2) (Fin 2) ℝ)
    (kind : SetKind) (p : Dict ℝ) (colors : Dict String) (body : String) :
    Except PyErr (List Artist) :=
  (bodyXZ kind p body).bind fun c => (bodyRadii eig kind p body).bind fun k =>
    (colors.get body).map fun col =>
      .circle c k.2.2.1 col ::
        (gyrationLines c.1 c.2 k.1 k.2.1 k.2.2.2).map fun l => .line [l.1, l.2] col

/-- parameter_sets.py:777-790 and 1456-1473. -/
noncomputable def ellipsoidArtists
    (eig : Matrix (Fin 2) (Fin 2) ℝ → (Fin 2 → ℝ) × Matrix (Fin 2) (Fin 2) ℝ)
    (kind : SetKind) (p : Dict ℝ) (colors : Dict String) (body : String) :
    Except PyErr (List Artist) :=
  (bodyRadii eig kind p body).bind fun k => (bodyXZ kind p body).bind fun c =>
    (colors.get body).map fun col =>
      [.ellipse (ellipsePatch c.1 c.2 k.1 k.2.1 k.2.2.1 k.2.2.2) col]

/-- parameter_sets.py:1214-1249 (Moore2019 only).  Without the optional cross the last two lines
are not drawn. -/
noncomputable def diamondArtists (kind : SetKind) (p : Dict ℝ) (colors : Dict String)
    (showCross : Bool) : Except PyErr (List Artist) :=
  if kind = .moore2019 then
    (Dict.require p ["wP", "alphaP", "lP", "xP", "zP"]).bind fun _ =>
      (colors.get "P").map fun col =>
        let v := fun k => Dict.getD p k 0
        .line (personDiamond (v "xP") (v "zP") (v "wP") (v "lP") (v "alphaP")) col ::
          if showCross then
            [.line [(v "xP" - v "wP" / 2 * cos (-v "alphaP"), v "zP" - v "wP" / 2 * sin (-v "alphaP")),
                (v "xP" + v "wP" / 2 * cos (-v "alphaP"), v "zP" + v "wP" / 2 * sin (-v "alphaP"))] "black",
             .line [(v "xP" - v "lP" / 2 * cos (-v "alphaP" + π / 2),
                v "zP" - v "lP" / 2 * sin (-v "alphaP" + π / 2)),
                (v "xP" + v "lP" / 2 * cos (-v "alphaP" + π / 2),
                v "zP" + v "lP" / 2 * sin (-v "alphaP" + π / 2))] "black"]
          else []
  else .error .attributeError

/-- A method that looks everything up, draws, and finishes with `_finalize_plot`. (parameter_sets.py:511-866) -/
def drawAndFinalize (l : Except PyErr (List Artist)) (ax : Axes) : Except PyErr Unit × Axes :=
  match l with
  | .error e => (.error e, ax)
  | .ok l => (.ok (), finalizePlot (ax.add l))

/-- The loops over the bodies, parameter_sets.py:580-585, 742-747, 828-833, 1284-1289, 1362-1367,
1513-1518: one body after the other, and `_finalize_plot` at the end. -/
def drawBodies (f : String → Except PyErr (List Artist)) : List String → Axes → Except PyErr Unit × Axes
  | [], ax => (.ok (), finalizePlot ax)
  | b :: bs, ax =>
    match drawAndFinalize (f b) ax with
    | (.error e, ax') => (.error e, ax')
    | (.ok (), ax') => drawBodies f bs ax'

/-- One method call after another; an exception ends the sequence. (parameter_sets.py:835-866) -/
def andThen (f g : Axes → Except PyErr Unit × Axes) (ax : Axes) : Except PyErr Unit × Axes :=
  match f ax with
  | (.error e, ax') => (.error e, ax')
  | (.ok (), ax') => g ax'

/-- The plotting methods of a parameter set, with their optional arguments; `none` for `bodies` is
Python's `None`. (parameter_sets.py:511-866, 1149-1554) -/
inductive PlotCall where
  | geometry (showSteerAxis : Bool)
  | personDiamond (showCross : Bool)
  | bodyMassCenter (body : String)
  | massCenters (bodies : Option (List String))
  | bodyRadiiOfGyration (body : String)
  | radiiOfGyration (bodies : Option (List String))
  | bodyEllipsoid (body : String)
  | ellipsoids (bodies : Option (List String))
  | all

/-- The plotting methods, parameter_sets.py:511-865 (Meijaard2007 and the subclass with feedback) and
1149-1554 (Moore2019).  The other two classes have none of them. -/
noncomputable def plotCall
    (eig : Matrix (Fin 2) (Fin 2) ℝ → (Fin 2 → ℝ) × Matrix (Fin 2) (Fin 2) ℝ) (kind : SetKind)
    (p : Dict ℝ) (colors : Dict String) (call : PlotCall) : Axes → Except PyErr Unit × Axes :=
  if kind = .moore2012 ∨ kind = .riderLean then fun ax => (.error .attributeError, ax) else
  match call with
  | .geometry s => drawAndFinalize (geometryArtists p s)
  | .personDiamond s => drawAndFinalize (diamondArtists kind p colors s)
  | .bodyMassCenter b => drawAndFinalize (massCenterArtists kind p colors b)
  | .massCenters bs => drawBodies (massCenterArtists kind p colors) (bs.getD kind.bodyLabels)
  | .bodyRadiiOfGyration b => drawAndFinalize (radiiArtists eig kind p colors b)
  | .radiiOfGyration bs => drawBodies (radiiArtists eig kind p colors) (bs.getD kind.bodyLabels)
  | .bodyEllipsoid b => drawAndFinalize (ellipsoidArtists eig kind p colors b)
  | .ellipsoids bs => drawBodies (ellipsoidArtists eig kind p colors) (bs.getD kind.bodyLabels)
  | .all =>
    let radii := drawBodies (radiiArtists eig kind p colors) kind.bodyLabels
    let ellipsoids := drawBodies (ellipsoidArtists eig kind p colors) kind.bodyLabels
    let geometry := drawAndFinalize (geometryArtists p true)
    let centers := drawBodies (massCenterArtists kind p colors) kind.bodyLabels
    match kind with
    | .moore2019 =>
      andThen radii (andThen ellipsoids (andThen (drawAndFinalize (diamondArtists kind p colors false))
        (andThen geometry (andThen centers fun ax => (.ok (), finalizePlot ax)))))
    | _ => andThen radii (andThen ellipsoids (andThen geometry centers))

/-- A user's session: the calls are made one after the other on the same axes; the user goes on after
an exception. (parameter_sets.py:511-866, 1149-1554) -/
noncomputable def plotSession
    (eig : Matrix (Fin 2) (Fin 2) ℝ → (Fin 2 → ℝ) × Matrix (Fin 2) (Fin 2) ℝ) (kind : SetKind)
    (p : Dict ℝ) (colors : Dict String) (ax : Axes) (calls : List PlotCall) : Axes :=
  calls.foldl (fun ax c => (plotCall eig kind p colors c ax).2) ax

end BP
