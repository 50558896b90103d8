import Verif.Model.PeriodFit
import Verif.Model.IO

/-!
# The figures of `get_period`

matplotlib.pyplot keeps the open figures in the order of their last activity; the functions of the module `plt` act on
the current axes of the last one.  A figure that is no longer open can still be used through a reference.
-/

namespace BP

open Real

/-- What is on an axes: the plotted lines, with their formats, the labels, the title, the labels of the legend (given to
the lines in their order) and the limits of the abscissa. (period.py:477-497) -/
structure Pane where
  lines : List (List ℝ × List ℝ × String)
  xlabel : String
  ylabel : String
  title : Text
  legend : List String
  xlim : Option (ℝ × ℝ)

/-- An axes as `plt.subplots` makes it. (period.py:285, 479) -/
def Pane.empty : Pane := ⟨[], "", "", [], [], none⟩

/-- A figure: `fig.axes`, and the position of its current axes. (period.py:477-480) -/
structure PlotFigure where
  axes : List Pane
  current : ℕ

/-- All figures that were made, a reference to one being its position; and the open ones, the active one being the
last. (period.py:285-288, 477-497) -/
structure Pyplot where
  heap : List PlotFigure
  active : List ℕ

/-- `plt.subplots`. (period.py:285, 480) -/
def Pyplot.subplots (s : Pyplot) : Pyplot × ℕ :=
  (⟨s.heap ++ [⟨[Pane.empty], 0⟩], s.active ++ [s.heap.length]⟩, s.heap.length)

/-- A method of the axes at a position of a figure. (period.py:481) -/
def Pyplot.edit (s : Pyplot) (fig pos : ℕ) (f : Pane → Pane) : Pyplot :=
  ⟨s.heap.modify fig fun F => ⟨F.axes.modify pos f, F.current⟩, s.active⟩

/-- `plt.gca`, which the functions of `plt` call: the current axes of the active figure; figure and axes are made when there
are none. (period.py:482-496) -/
def Pyplot.gca (s : Pyplot) : Pyplot × ℕ × ℕ :=
  match s.active.getLast? with
  | none => (s.subplots.1, s.heap.length, 0)
  | some i =>
    match s.heap[i]? with
    | none => (s, i, 0)
    | some F => if F.axes = [] then (⟨s.heap.set i ⟨[Pane.empty], 0⟩, s.active⟩, i, 0) else (s, i, F.current)

/-- A function of `plt`. (period.py:482-496) -/
def Pyplot.here (s : Pyplot) (f : Pane → Pane) : Pyplot := s.gca.1.edit s.gca.2.1 s.gca.2.2 f

/-- `plot`. (period.py:481-482) -/
def Pane.plot (x y : List ℝ) (format : String) (a : Pane) : Pane := { a with lines := a.lines ++ [(x, y, format)] }

/-- period.py:485-491: the title, with the five parameters of the fit; `fixed n` prints a number with n decimals, `str`
prints the period. -/
def osfitTitle {U : Type} (fixed : ℕ → ℝ → Text) (str : U → Text) (p : Fin 5 → ℝ) (rsq : ℝ) (T : U) : Text :=
  "$f(t)=".toList ++ fixed 2 (p 0) ++ "+e^{-(".toList ++ fixed 3 (p 3) ++ ")(".toList ++ fixed 1 (p 4) ++
  ")t}\\left[".toList ++ fixed 2 (p 1) ++ "\\sin{\\sqrt{1-".toList ++ fixed 3 (p 3) ++ "^2}".toList ++ fixed 1 (p 4) ++
  "t}+".toList ++ fixed 2 (p 2) ++ "\\cos{\\sqrt{1-".toList ++ fixed 3 (p 3) ++ "^2}".toList ++ fixed 1 (p 4) ++
  "t}\\right]$".toList ++ ['\n'] ++ "$r^2=".toList ++ fixed 3 rsq ++ "$".toList ++ ", ".toList ++ "$T=".toList ++ str T ++
  " s$".toList

/-- period.py:477-497, `plot_osfit`.  Simplification: the marker size and the arguments of `subplots` are left out; the
title is an argument (`osfitTitle`). -/
def plotOsfit (t ym yf : List ℝ) (title : Text) (m : Option ℝ) (fig : Option ℕ) (s : Pyplot) : Pyplot × Except PyErr ℕ :=
  match (match fig with
    | some i => (match s.heap[i]? with
      | some F => if F.axes = [] then (s, Except.error PyErr.indexError) else (s, Except.ok i)
      | none => (s, Except.error PyErr.indexError))
    | none => (s.subplots.1, Except.ok s.subplots.2)) with
  | (s, .error e) => (s, .error e)
  | (s, .ok i) =>
    if t.length ≠ ym.length then (s, .error .valueError)
    else
      let s := s.edit i 0 (Pane.plot t ym ".")
      if t.length ≠ yf.length then (s.here id, .error .valueError)
      else
        let s := s.here (Pane.plot t yf "k-")
        let s := s.here fun a => { a with xlabel := "Time [s]" }
        let s := s.here fun a => { a with ylabel := "Amplitude [V]" }
        let s := s.here fun a => { a with title := title }
        let s := s.here fun a => { a with legend := ["Measured", "Fit"] }
        match m with
        | some m => (s.here fun a => { a with xlim := some (0, m) }, .ok i)
        | none => (s, .ok i)

/-- period.py:284-288: the figure of `get_period` is drawn, written to a file and closed.  The result is what was written to
the file.  `saved`: the exception of `savefig`, if it fails. -/
noncomputable def periodPlot (t y curve : List ℝ) (title : Text) (saved : Option PyErr) (s : Pyplot) :
    Pyplot × Except PyErr PlotFigure :=
  match plotOsfit t y curve title (some (npMax t)) (some s.subplots.2) s.subplots.1 with
  | (s', .error e) => (s', .error e)
  | (s', .ok _) =>
    match saved, s'.heap[s.subplots.2]? with
    | none, some F => (⟨s'.heap, s'.active.dropLast⟩, .ok F)
    | some e, _ => (s', .error e)
    | none, none => (s', .error .indexError)

end BP
