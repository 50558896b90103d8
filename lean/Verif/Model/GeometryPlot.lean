import Verif.Model.SetPlots
import Verif.Model.Main
import Verif.Model.Rider
import Verif.Model.App

/-!
# Model: `Bicycle.plot_bicycle_geometry` and `_plot_bicycle_geometry_plotly` (`main.py`)

The figures are local to the methods: when a method raises, the caller gets nothing.  Coordinates
are those of the drawing, x forward and y = -z up.  Line styles, widths, fonts, transparency,
sizes and `show` are not modelled.
-/

namespace BP

open Real Matrix

/-- The attribute `extras` of a bicycle computed from measurements, uncertainties removed. (main.py:496-727) -/
structure Extras where
  slopes : Dict (List ℝ)
  intercepts : Dict (List ℝ)
  inertias : Dict (List ℝ)

/-- The points of a `yeadon.Human` that are drawn, in Yeadon's frame: `K2.end_pos`, `K2.pos`,
`K1.pos`, `B1.pos`, `B2.pos`, `B2.end_pos`, `C.end_pos`. (main.py:496-727) -/
structure Joints where
  foot : Vec3
  knee : Vec3
  hip : Vec3
  shoulder : Vec3
  elbow : Vec3
  fingers : Vec3
  head : Vec3

/-- What the two methods read of a `Bicycle`: `parameters['Benchmark']` and `['Measured']` with the
uncertainties removed, `extras` (`none`: the attribute does not exist), `hasRider`, `human`. (main.py:496-1032) -/
structure Drawable where
  par : Dict ℝ
  measured : Dict ℝ
  extras : Option Extras
  hasRider : Bool
  human : Option Joints

/-- The options of the two methods. (main.py:496-498, 729-731) -/
structure GeometryOptions where
  pendulum : Bool
  centerOfMass : Bool
  inertiaEllipse : Bool

/-- main.py:525 with 1547: one-letter part names. -/
def drawnParts (par : Dict ℝ) : Except PyErr (List String) :=
  (getPartsInParameters par).map fun l => l.map fun c => String.singleton c

/-- main.py:551-556, 786-791.  `part in 'FD'` is a substring test; a part name has one letter. -/
def partCenter (par : Dict ℝ) (part : String) : Except PyErr (ℝ × ℝ) :=
  if part = "R" then (par.get "rR").map fun r => (0, r)
  else if part = "F" ∨ part = "D" then
    (par.get "w").bind fun w => (par.get "rF").map fun r => (w, r)
  else (par.get ("x" ++ part)).bind fun x => (par.get ("z" ++ part)).map fun z => (x, -z)

/-- main.py:557-581, 792-816: width, height and angle in degrees of the ellipse from the principal
moments and axes, and the row left out. -/
noncomputable def ellipseSize (Ip : Vec3) (C : Mat3) (yrow : Fin 3) : ℝ × ℝ × ℝ :=
  let Imin := Ip (yrow.succAbove 0)
  let Imax := Ip (yrow.succAbove 1)
  let unitWidth := 1 / 2 / √Imin * √Imin
  let unitHeight := 1 / 2 / √Imax * √Imin
  (Imax * unitWidth, Imax * unitHeight, -(arccos (C (yrow.succAbove 0) 0) * 180 / π))

/-- One round of the loops of main.py:548-586 and 783-827: centre and size of the ellipse of a part.
`eig` is numpy's `eig` of a 3 by 3 matrix, `argsort` numpy's.  `yrow` is the local variable, which
keeps its value from the part before when no row matches. -/
noncomputable def partEllipse (eig : Mat3 → Vec3 × Mat3) (argsort : Vec3 → Fin 3 → Fin 3)
    (par : Dict ℝ) (yrow : Option (Fin 3)) (part : String) :
    Except PyErr (((ℝ × ℝ) × (ℝ × ℝ × ℝ)) × Option (Fin 3)) :=
  (partInertiaTensor par part).bind fun I =>
    let pa := principalAxes argsort (eig I).1 (eig I).2
    (partCenter par part).bind fun c =>
      match (ellipseYRow pa.2).or yrow with
      | none => .error .unboundLocal
      | some y => .ok ((c, ellipseSize pa.1 pa.2 y), some y)

/-- The loops of main.py:548-586 and 783-827. -/
noncomputable def allEllipses (eig : Mat3 → Vec3 × Mat3) (argsort : Vec3 → Fin 3 → Fin 3)
    (par : Dict ℝ) : Option (Fin 3) → List String → Except PyErr (List (String × (ℝ × ℝ) × (ℝ × ℝ × ℝ)))
  | _, [] => .ok []
  | y, part :: rest =>
    (partEllipse eig argsort par y part).bind fun e =>
      (allEllipses eig argsort par e.2 rest).map fun l => (part, e.1) :: l

/-- main.py:613-624, 894-904 for one part: the segments for its pendulum axes. -/
noncomputable def partPendulums (intercepts inertias : Dict (List ℝ)) (par : Dict ℝ) (part : String)
    (slopeSet : List ℝ) : Except PyErr (List ((ℝ × ℝ) × (ℝ × ℝ))) :=
  (par.get ("x" ++ part)).bind fun xcom => (par.get ("z" ++ part)).bind fun zcom =>
    slopeSet.zipIdx.mapM fun m =>
      (intercepts.get part).bind fun bs =>
        match bs[m.2]? with
        | none => .error .indexError
        | some b => (inertias.get part).bind fun ls =>
          match ls[m.2]? with
          | none => .error .indexError
          | some L => .ok (pendulumSegment m.1 b xcom zcom L)

/-- main.py:527-533, 606-614: the segments of all parts, or none when they are not drawn. -/
noncomputable def pendulumSegments (s : Drawable) (o : GeometryOptions) :
    Except PyErr (List (String × List ((ℝ × ℝ) × (ℝ × ℝ)))) :=
  match s.extras with
  | none => .ok []
  | some e =>
    if o.pendulum ∧ ¬s.hasRider then
      e.slopes.mapM fun pr =>
        (partPendulums e.intercepts e.inertias s.par pr.1 pr.2).map fun l => (pr.1, l)
    else .ok []

/-- main.py:598-602, 861-871: the frame and the steer axis, drawn with z up. -/
noncomputable def frameAndAxis (par : Dict ℝ) : List (ℝ × ℝ) × List (ℝ × ℝ) :=
  let v := fun k => Dict.getD par k 0
  let pts := fundamentalGeometryPlotData (v "w") (v "c") (v "lam") (v "rR") (v "rF")
  let p1 := pts.getD 1 (0, 0)
  let p2 := pts.getD 2 (0, 0)
  (pts.map fun q => (q.1, -q.2), [(p2.1, -p2.2), (steerGroundX p1 p2, 0)])

/-- main.py:668-712: a joint in the drawing plane. -/
noncomputable def drawnJoint (s : Drawable) (v : Vec3) : Except PyErr (ℝ × ℝ) :=
  (yeadonVecToBicycleVec v s.measured s.par).map fun r => (r 0, -(r 2))

/-- One line of the stick figure. (main.py:496-727) -/
noncomputable def limb (s : Drawable) (a b : Vec3) : Except PyErr (List (ℝ × ℝ)) :=
  (drawnJoint s a).bind fun p => (drawnJoint s b).map fun q => [p, q]

/-! ## matplotlib -/

/-- The figure `plot_bicycle_geometry` returns: what is drawn and the y limits. (main.py:496-727) -/
structure GeometryFigure where
  artists : List Artist
  ylim : ℝ × ℝ

/-- main.py:540-544; `cmap` is the colour map. -/
noncomputable def partColors (cmap : ℝ → String) (parts : List String) : Dict String :=
  parts.zipIdx.foldl (fun d e => d.set e.1 (cmap ((e.2 : ℝ) / (parts.length : ℝ)))) []

/-- main.py:627-643: the symbol and the label. -/
noncomputable def comMark (center : ℝ × ℝ) (color label : String) : List Artist :=
  [.wedge center 0.03 0 90 color, .wedge center 0.03 180 270 color, .circle center 0.03 "",
   .text (center.1 + 0.03, center.2 + 0.03) label]

/-- main.py:642-662. -/
noncomputable def comMarks (par : Dict ℝ) (colors : Dict String) (parts : List String) :
    Except PyErr (List Artist) :=
  (par.get "w").bind fun w => (par.get "rF").bind fun rF => (colors.get "F").bind fun cF =>
  (par.get "rR").bind fun rR => (colors.get "R").bind fun cR =>
  ((parts.filter fun x => ¬(x = "R" ∨ x = "F" ∨ x = "D")).mapM fun part =>
    (par.get ("x" ++ part)).bind fun x => (par.get ("z" ++ part)).bind fun z =>
      (colors.get part).map fun c => comMark (x, -z) c part).bind fun rest =>
  (if "H" ∈ parts then .ok [] else
    (par.get "xH").bind fun x => (par.get "zH").map fun z => comMark (x, -z) "b" "H").map fun h =>
    comMark (w, rF) cF "F" ++ comMark (0, rR) cR "R" ++ rest.flatten ++ h

/-- main.py:622-626: a line and its number for each pendulum axis.  In the code the colour of a part
is looked up between its first segment and the next; with a missing colour and a missing
intercept the model may raise the other of the two exceptions. -/
def pendulumArtists (colors : Dict String) (segs : List (String × List ((ℝ × ℝ) × (ℝ × ℝ)))) :
    Except PyErr (List Artist) :=
  (segs.mapM fun e : String × List ((ℝ × ℝ) × (ℝ × ℝ)) =>
    e.2.zipIdx.mapM fun g : ((ℝ × ℝ) × (ℝ × ℝ)) × ℕ => (colors.get e.1).map fun c =>
      [Artist.line [g.1.1, g.1.2] c, Artist.text g.1.1 (toString (g.2 + 1))]).map fun l =>
    l.flatten.flatten

/-- main.py:664-713: the six lines, and the height of the head. -/
noncomputable def stickFigure (s : Drawable) : Except PyErr (List Artist × ℝ) :=
  match s.human with
  | none => .ok ([], 0)
  | some h =>
    ([(h.foot, h.knee), (h.knee, h.hip), (h.hip, h.shoulder), (h.shoulder, h.elbow),
      (h.elbow, h.fingers), (h.shoulder, h.head)].mapM fun ab => limb s ab.1 ab.2).bind fun l =>
    (drawnJoint s h.head).map fun top => (l.map fun pts => .line pts "k", top.2)

/-- main.py:717-728: the y limits. -/
noncomputable def yLimits (rR rF : ℝ) (frame : List (ℝ × ℝ)) (head : ℝ) : ℝ × ℝ :=
  let ys := frame.map Prod.snd
  let maxY := max (max (2 * rR) (2 * rF)) (max (ys.foldr max (ys.headD 0)) head)
  let minY := ys.foldr min (ys.headD 0)
  (if 0 ≤ minY then min 0 minY else -(⌈|minY|⌉ : ℝ), (⌈maxY⌉ : ℝ))

/-- main.py:524-739.  Missing entries of the fundamental geometry raise when they are first read, with
the same KeyError whichever comes first; the model reads them before anything is drawn. -/
noncomputable def plotBicycleGeometry (eig : Mat3 → Vec3 × Mat3) (argsort : Vec3 → Fin 3 → Fin 3)
    (cmap : ℝ → String) (s : Drawable) (o : GeometryOptions) : Except PyErr GeometryFigure :=
  (drawnParts s.par).bind fun parts =>
  let colors := partColors cmap parts
  (if o.inertiaEllipse then allEllipses eig argsort s.par none parts else .ok []).bind fun ells =>
  (ells.mapM fun e => (colors.get e.1).map fun c =>
    Artist.ellipse ⟨e.2.1.1, e.2.1.2, e.2.2.1, e.2.2.2.1, e.2.2.2.2⟩ c).bind fun ellipses =>
  (Dict.require s.par ["rR", "w", "rF", "c", "lam"]).bind fun _ =>
  let v := fun k => Dict.getD s.par k 0
  let fa := frameAndAxis s.par
  (pendulumSegments s o).bind fun segs =>
  (pendulumArtists colors segs).bind fun pens =>
  (if o.centerOfMass then comMarks s.par colors parts else .ok []).bind fun coms =>
  (stickFigure s).bind fun fig =>
  .ok ⟨ellipses ++
    [.line [(-v "rR", 0), (v "w" + v "rF", 0)] "k", .circle (0, v "rR") (v "rR") "",
     .circle (v "w", v "rF") (v "rF") "", .line fa.1 "k", .line fa.2 "k"] ++ pens ++ coms ++ fig.1,
    yLimits (v "rR") (v "rF") fa.1 fig.2⟩

/-! ## plotly -/

/-- A trace of a plotly figure (`go.Scatter` with mode `lines`) or an annotation. (main.py:729-1032) -/
inductive Trace where
  | lines (points : List (ℝ × ℝ)) (name : String) (color : String)
  | note (pos : ℝ × ℝ) (label : String)

/-- main.py:778-779: the colour of the part at a place. -/
def nthColor (cmap : List String) (e : String × ℕ) : Except PyErr (String × String) :=
  match cmap[e.2]? with
  | none => .error .indexError
  | some c => .ok (e.1, c)

/-- main.py:773-779: `cmap` is the list `px.colors.qualitative.Pastel`. -/
def plotlyColors (cmap : List String) (parts : List String) : Except PyErr (Dict String) :=
  (parts.zipIdx.mapM (nthColor cmap)).map fun l : List (String × String) =>
    l.foldl (fun d e => Dict.set d e.1 e.2) []

/-- main.py:814-822: the angle in degrees is given to cos and sin. -/
noncomputable def plotlyEllipse (c : ℝ × ℝ) (size : ℝ × ℝ × ℝ) : List (ℝ × ℝ) :=
  ellipsePlotData c.1 c.2 ![cos size.2.2, sin size.2.2] ![-sin size.2.2, cos size.2.2]
    size.2.1 size.1 100

/-- main.py:837-843. -/
noncomputable def circlePoints (R xc yc : ℝ) : List (ℝ × ℝ) :=
  (linspace 0 (2 * π) 100).map fun t => (R * cos t + xc, R * sin t + yc)

/-- A quarter of the circle of main.py:909-928. -/
noncomputable def quarter (R xc yc a b : ℝ) : List (ℝ × ℝ) :=
  (linspace a b 100).map fun t => (R * cos t + xc, R * sin t + yc)

/-- main.py:908-968: the nine traces of a mass centre, and the note beside it. -/
noncomputable def plotlyCom (c : ℝ × ℝ) (color label : String) : List Trace :=
  let R := 0.03
  [.lines [(c.1, c.2), (c.1 + R, c.2)] "" color, .lines [(c.1, c.2), (c.1, c.2 + R)] "" color,
   .lines (quarter R c.1 c.2 0 (0.5 * π)) "" color, .lines (quarter R c.1 c.2 (0.5 * π) π) "" color,
   .lines (quarter R c.1 c.2 π (1.5 * π)) "" color,
   .lines [(c.1 - R, c.2), (c.1, c.2)] "" color, .lines [(c.1, c.2 - R), (c.1, c.2)] "" color,
   .lines (quarter R c.1 c.2 (1.5 * π) (2 * π)) "" color,
   .lines [(c.1, c.2), (c.1, c.2)] "COM" color, .note (c.1 + 0.055, c.2 + 0.055) label]

/-- main.py:970-1002. -/
noncomputable def plotlyComs (par : Dict ℝ) (colors : Dict String) (parts : List String) :
    Except PyErr (List Trace) :=
  (par.get "w").bind fun w => (par.get "rF").bind fun rF => (colors.get "F").bind fun cF =>
  (par.get "rR").bind fun rR => (colors.get "R").bind fun cR =>
  ((parts.filter fun x => ¬(x = "R" ∨ x = "F" ∨ x = "D")).mapM fun part =>
    (par.get ("x" ++ part)).bind fun x => (par.get ("z" ++ part)).bind fun z =>
      (colors.get part).map fun c => plotlyCom (x, -z) c part).bind fun rest =>
  (if "H" ∈ parts then .ok [] else
    (par.get "xH").bind fun x => (par.get "zH").bind fun z =>
      (colors.get "H").map fun c => plotlyCom (x, -z) c "H").map fun h =>
    plotlyCom (w, rF) cF "F" ++ plotlyCom (0, rR) cR "R" ++ rest.flatten ++ h

/-- main.py:1003-1018: only the first of the two limbs is drawn. -/
noncomputable def plotlyStick (s : Drawable) : Except PyErr (List Trace) :=
  match s.human with
  | none => .ok []
  | some h =>
    (limb s h.foot h.knee).bind fun l => (limb s h.knee h.hip).map fun _ => [.lines l "" ""]

/-- main.py:753-1032 with plotly installed.  Missing entries as in `plotBicycleGeometry`. -/
noncomputable def plotBicycleGeometryPlotly (eig : Mat3 → Vec3 × Mat3)
    (argsort : Vec3 → Fin 3 → Fin 3) (cmap : List String) (s : Drawable) (o : GeometryOptions) :
    Except PyErr (List Trace) :=
  (drawnParts s.par).bind fun parts =>
  (plotlyColors cmap parts).bind fun colors =>
  (if o.inertiaEllipse then allEllipses eig argsort s.par none parts else .ok []).bind fun ells =>
  (ells.mapM fun e => (colors.get e.1).map fun c =>
    Trace.lines (plotlyEllipse e.2.1 e.2.2) ("Inertia of " ++ e.1) c).bind fun ellipses =>
  (Dict.require s.par ["rR", "w", "rF", "c", "lam"]).bind fun _ =>
  let v := fun k => Dict.getD s.par k 0
  let fa := frameAndAxis s.par
  (pendulumSegments s o).bind fun segs =>
  (if o.centerOfMass then plotlyComs s.par colors parts else .ok []).bind fun coms =>
  (plotlyStick s).bind fun fig =>
  .ok (ellipses ++
    [.lines [(-v "rR", 0), (v "w" + v "rF", 0)] "Ground" "lightgrey",
     .lines (circlePoints (v "rR") 0 (v "rR")) "Rear wheel" "grey",
     .lines (circlePoints (v "rF") (v "w") (v "rF")) "Front wheel" "grey",
     .lines fa.1 "Bicycle" "black", .lines fa.2 "Steer axis" "dodgerblue"] ++
    (segs.flatMap fun e => e.2.map fun g => .lines [g.1, g.2] "Pendulum" "") ++ coms ++ fig)

end BP
