import Verif.Model.PeriodPlot

/-!
# C138: the figure of a period
-/

namespace BP

open Real

/-- The figure that shows a measurement and its fit: both on one axes, measured first. -/
def Spec.FitFigure (t y curve : List ℝ) (title : Text) (lim : Option ℝ) : PlotFigure :=
  ⟨[{ lines := [(t, y, "."), (t, curve, "k-")], xlabel := "Time [s]", ylabel := "Amplitude [V]", title := title,
      legend := ["Measured", "Fit"], xlim := lim.map fun m => (0, m) }], 0⟩

theorem edit_last (h : List PlotFigure) (F : PlotFigure) (a : List ℕ) (pos : ℕ) (f : Pane → Pane) :
    (⟨h ++ [F], a⟩ : Pyplot).edit h.length pos f = ⟨h ++ [⟨F.axes.modify pos f, F.current⟩], a⟩ := by
  unfold Pyplot.edit
  dsimp only
  refine congrArg (Pyplot.mk · a) ?_
  induction h with
  | nil => rfl
  | cons x h ih => rw [List.cons_append, List.length_cons, List.modify_succ_cons, ih]; rfl

theorem here_last (h : List PlotFigure) (p : Pane) (a : List ℕ) (f : Pane → Pane) :
    (⟨h ++ [⟨[p], 0⟩], a ++ [h.length]⟩ : Pyplot).here f = ⟨h ++ [⟨[f p], 0⟩], a ++ [h.length]⟩ := by
  have hg : (⟨h ++ [⟨[p], 0⟩], a ++ [h.length]⟩ : Pyplot).gca = (⟨h ++ [⟨[p], 0⟩], a ++ [h.length]⟩, h.length, 0) := by
    unfold Pyplot.gca
    simp
  unfold Pyplot.here
  rw [hg, edit_last]
  rfl

/-- **C138.** Without a figure, `plot_osfit` makes a new one with both curves on its only axes and returns it; all other
figures are unchanged. -/
theorem C138_new_figure (t ym yf : List ℝ) (title : Text) (m : Option ℝ) (s : Pyplot)
    (h1 : ym.length = t.length) (h2 : yf.length = t.length) :
    plotOsfit t ym yf title m none s =
      (⟨s.heap ++ [Spec.FitFigure t ym yf title m], s.active ++ [s.heap.length]⟩, .ok s.heap.length) := by
  unfold plotOsfit
  simp only [Pyplot.subplots, h1, h2, ne_eq, not_true_eq_false, if_false, edit_last]
  cases m <;> simp only [List.modify_cons, if_true, here_last] <;> rfl

theorem drawn (t y curve : List ℝ) (title : Text) (m : ℝ) (s : Pyplot)
    (h1 : y.length = t.length) (h2 : curve.length = t.length) :
    plotOsfit t y curve title (some m) (some s.subplots.2) s.subplots.1 =
      (⟨s.heap ++ [Spec.FitFigure t y curve title (some m)], s.active ++ [s.heap.length]⟩, .ok s.heap.length) := by
  unfold plotOsfit
  have hidx : (s.heap ++ [(⟨[Pane.empty], 0⟩ : PlotFigure)])[s.heap.length]? = some ⟨[Pane.empty], 0⟩ := by simp
  simp only [Pyplot.subplots, hidx, h1, h2, ne_eq, not_true_eq_false, if_false, edit_last, List.modify_cons,
    if_true, here_last, List.cons_ne_nil]
  rfl

/-- **C138.** Whatever figures are open, the file that `get_period` writes shows the measurement and the fitted curve on
one axes, over the whole time of the measurement, and afterwards all figures, the open ones and the active one are as
before. -/
theorem C138_period_figure (t y curve : List ℝ) (title : Text) (s : Pyplot)
    (h1 : y.length = t.length) (h2 : curve.length = t.length) :
    (periodPlot t y curve title none s).2 = .ok (Spec.FitFigure t y curve title (some (npMax t))) ∧
    (periodPlot t y curve title none s).1.active = s.active ∧
    ∀ (i : ℕ) (F : PlotFigure), s.heap[i]? = some F → (periodPlot t y curve title none s).1.heap[i]? = some F := by
  have key := drawn t y curve title (npMax t) s h1 h2
  have hidx : (s.heap ++ [Spec.FitFigure t y curve title (some (npMax t))])[s.heap.length]? =
      some (Spec.FitFigure t y curve title (some (npMax t))) := by simp
  unfold periodPlot
  rw [key]
  simp only [Pyplot.subplots, hidx, List.dropLast_concat, true_and]
  intro i F hi
  have hlt : i < s.heap.length := (List.getElem?_eq_some_iff.1 hi).1
  rw [List.getElem?_append_left hlt]
  exact hi

/-- **C138.** When the file cannot be written, the figure stays open, and it is the active one. -/
theorem C138_failed_save_leaks (t y curve : List ℝ) (title : Text) (e : PyErr) (s : Pyplot)
    (h1 : y.length = t.length) (h2 : curve.length = t.length) :
    (periodPlot t y curve title (some e) s).2 = .error e ∧
    (periodPlot t y curve title (some e) s).1.active = s.active ++ [s.heap.length] := by
  have key := drawn t y curve title (npMax t) s h1 h2
  unfold periodPlot
  rw [key]
  exact ⟨rfl, rfl⟩

/-- **C138.** After any number of measurements no figure is left open. -/
theorem C138_no_figures_left (runs : List (List ℝ × List ℝ × List ℝ × Text))
    (h : ∀ r ∈ runs, r.2.1.length = r.1.length ∧ r.2.2.1.length = r.1.length) (s : Pyplot) :
    (runs.foldl (fun s r => (periodPlot r.1 r.2.1 r.2.2.1 r.2.2.2 none s).1) s).active = s.active ∧
    ∀ (i : ℕ) (F : PlotFigure), s.heap[i]? = some F →
      (runs.foldl (fun s r => (periodPlot r.1 r.2.1 r.2.2.1 r.2.2.2 none s).1) s).heap[i]? = some F := by
  induction runs generalizing s with
  | nil => exact ⟨rfl, fun _ _ h => h⟩
  | cons r runs ih =>
    obtain ⟨h1, h2⟩ := h r (by simp)
    obtain ⟨-, a1, a2⟩ := C138_period_figure r.1 r.2.1 r.2.2.1 r.2.2.2 s h1 h2
    obtain ⟨b1, b2⟩ := ih (fun r' hr => h r' (List.mem_cons_of_mem _ hr)) (periodPlot r.1 r.2.1 r.2.2.1 r.2.2.2 none s).1
    exact ⟨b1.trans a1, fun i F hi => b2 i F (a2 i F hi)⟩

theorem here_active (s : Pyplot) (i j : ℕ) (F : PlotFigure) (f : Pane → Pane) (ha : s.active.getLast? = some i)
    (hF : s.heap[i]? = some F) (hne : F.axes ≠ []) (hj : F.current = j) :
    s.here f = s.edit i j f := by
  unfold Pyplot.here Pyplot.gca
  rw [ha]
  dsimp only
  rw [hF]
  dsimp only
  rw [if_neg hne, hj]

theorem edit_heap (s : Pyplot) (i j k : ℕ) (f : Pane → Pane) :
    (s.edit i j f).heap[k]? = if k = i then (s.heap[i]?).map fun F => ⟨F.axes.modify j f, F.current⟩ else s.heap[k]? := by
  unfold Pyplot.edit
  dsimp only
  rw [List.getElem?_modify]
  by_cases e : k = i
  · subst e
    simp
  · have e' : ¬ i = k := fun h => e h.symm
    rw [if_neg e]
    simp [e']

/-- **C138.** When the given figure is not the active one, the curve of the fit is not drawn into it: the figure gets the
measured points alone, and the curve, the labels, the title, the legend and the limits go to the current axes of the active
figure. -/
theorem C138_other_figure_active (t ym yf : List ℝ) (title : Text) (m : ℝ) (i k : ℕ) (F G : PlotFigure) (s : Pyplot)
    (h1 : ym.length = t.length) (h2 : yf.length = t.length)
    (hF : s.heap[i]? = some F) (hF0 : F.axes ≠ []) (ha : s.active.getLast? = some k) (hik : i ≠ k)
    (hG : s.heap[k]? = some G) (hG0 : G.axes ≠ []) :
    (plotOsfit t ym yf title (some m) (some i) s).2 = .ok i ∧
    (plotOsfit t ym yf title (some m) (some i) s).1.heap[i]? =
      some ⟨F.axes.modify 0 (Pane.plot t ym "."), F.current⟩ ∧
    (plotOsfit t ym yf title (some m) (some i) s).1.heap[k]? =
      some ⟨G.axes.modify G.current fun a => ⟨a.lines ++ [(t, yf, "k-")], "Time [s]", "Amplitude [V]", title,
        ["Measured", "Fit"], some (0, m)⟩, G.current⟩ := by
  have hki : ¬ k = i := fun e => hik e.symm
  -- one function of plt
  have step : ∀ (r : Pyplot) (P : List Pane) (f : Pane → Pane), r.active.getLast? = some k →
      r.heap[k]? = some ⟨P, G.current⟩ → P ≠ [] →
      (r.here f).active = r.active ∧ (r.here f).heap[k]? = some ⟨P.modify G.current f, G.current⟩ ∧
      (r.here f).heap[i]? = r.heap[i]? := by
    intro r P f ha hk hP
    rw [here_active r k G.current ⟨P, G.current⟩ f ha hk hP rfl]
    refine ⟨rfl, ?_, ?_⟩
    · rw [edit_heap, if_pos rfl, hk]; rfl
    · rw [edit_heap, if_neg hik]
  have hne : ∀ (P : List Pane) (j : ℕ) (f : Pane → Pane), P ≠ [] → P.modify j f ≠ [] := by
    intro P j f hP h
    exact hP (by rw [← List.length_eq_zero_iff, ← List.length_modify f P j, h]; rfl)
  unfold plotOsfit
  simp only [hF, if_neg hF0, h1, h2, ne_eq, not_true_eq_false, if_false]
  generalize hr0 : s.edit i 0 (Pane.plot t ym ".") = r0
  have a0 : r0.active.getLast? = some k := by rw [← hr0]; exact ha
  have k0 : r0.heap[k]? = some ⟨G.axes, G.current⟩ := by rw [← hr0, edit_heap, if_neg hki]; exact hG
  have i0 : r0.heap[i]? = some ⟨F.axes.modify 0 (Pane.plot t ym "."), F.current⟩ := by
    rw [← hr0, edit_heap, if_pos rfl, hF]; rfl
  obtain ⟨a1, k1, i1⟩ := step r0 _ (Pane.plot t yf "k-") a0 k0 hG0
  have n1 := hne _ G.current (Pane.plot t yf "k-") hG0
  generalize r0.here (Pane.plot t yf "k-") = r1 at *
  obtain ⟨a2, k2, i2⟩ := step r1 _ (fun a => { a with xlabel := "Time [s]" }) (a1 ▸ a0) k1 n1
  have n2 := hne _ G.current (fun a => { a with xlabel := "Time [s]" }) n1
  generalize (r1.here fun a => { a with xlabel := "Time [s]" }) = r2 at *
  obtain ⟨a3, k3, i3⟩ := step r2 _ (fun a => { a with ylabel := "Amplitude [V]" }) (a2 ▸ a1 ▸ a0) k2 n2
  have n3 := hne _ G.current (fun a => { a with ylabel := "Amplitude [V]" }) n2
  generalize (r2.here fun a => { a with ylabel := "Amplitude [V]" }) = r3 at *
  obtain ⟨a4, k4, i4⟩ := step r3 _ (fun a => { a with title := title }) (a3 ▸ a2 ▸ a1 ▸ a0) k3 n3
  have n4 := hne _ G.current (fun a => { a with title := title }) n3
  generalize (r3.here fun a => { a with title := title }) = r4 at *
  obtain ⟨a5, k5, i5⟩ := step r4 _ (fun a => { a with legend := ["Measured", "Fit"] }) (a4 ▸ a3 ▸ a2 ▸ a1 ▸ a0) k4 n4
  have n5 := hne _ G.current (fun a => { a with legend := ["Measured", "Fit"] }) n4
  generalize (r4.here fun a => { a with legend := ["Measured", "Fit"] }) = r5 at *
  obtain ⟨a6, k6, i6⟩ := step r5 _ (fun a => { a with xlim := some (0, m) }) (a5 ▸ a4 ▸ a3 ▸ a2 ▸ a1 ▸ a0) k5 n5
  refine ⟨trivial, by rw [i6, i5, i4, i3, i2, i1, i0], ?_⟩
  rw [k6]
  simp only [List.modify_modify_eq]
  rfl

/-- A function of `plt` makes a figure when none is open. -/
theorem here_none (h : List PlotFigure) (f : Pane → Pane) :
    (⟨h, []⟩ : Pyplot).here f = ⟨h ++ [⟨[f Pane.empty], 0⟩], [] ++ [h.length]⟩ := by
  have hg : (⟨h, []⟩ : Pyplot).gca = (⟨h ++ [⟨[Pane.empty], 0⟩], [] ++ [h.length]⟩, h.length, 0) := rfl
  unfold Pyplot.here
  rw [hg, edit_last]
  rfl

/-- **C138.** When the given figure has been closed and no other is open, it gets the measured points alone, and the curve of
the fit, the labels, the title, the legend and the limits go to a new figure, which stays open though it is not the one
returned. -/
theorem C138_no_figure_open (t ym yf : List ℝ) (title : Text) (m : ℝ) (i : ℕ) (F : PlotFigure) (s : Pyplot)
    (h1 : ym.length = t.length) (h2 : yf.length = t.length)
    (hF : s.heap[i]? = some F) (hF0 : F.axes ≠ []) (ha : s.active = []) :
    plotOsfit t ym yf title (some m) (some i) s =
      (⟨s.heap.set i ⟨F.axes.modify 0 (Pane.plot t ym "."), F.current⟩ ++
        [⟨[⟨[(t, yf, "k-")], "Time [s]", "Amplitude [V]", title, ["Measured", "Fit"], some (0, m)⟩], 0⟩],
        [s.heap.length]⟩, .ok i) := by
  have he : s.edit i 0 (Pane.plot t ym ".") = ⟨s.heap.set i ⟨F.axes.modify 0 (Pane.plot t ym "."), F.current⟩, []⟩ := by
    unfold Pyplot.edit
    rw [ha]
    refine congrArg (Pyplot.mk · []) ?_
    rw [List.modify_eq_set_getElem?, hF]
    rfl
  unfold plotOsfit
  simp only [hF, if_neg hF0, h1, h2, ne_eq, not_true_eq_false, if_false, he, here_none, here_last]
  simp [Pane.plot, Pane.empty]

/-! ## The formula of the title -/

/-- The parts of a formula. -/
inductive Spec.Tex where
  | num (digits : ℕ) (v : ℝ)
  | one
  | time
  | paren (a : Spec.Tex)
  | sum (a b : Spec.Tex)
  | diff (a b : Spec.Tex)
  | times (a b : Spec.Tex)
  | square (a : Spec.Tex)
  | root (a : Spec.Tex)
  | sin (a : Spec.Tex)
  | cos (a : Spec.Tex)
  /-- e to the power of minus a -/
  | decay (a : Spec.Tex)
  | bracket (a : Spec.Tex)

/-- How TeX writes a formula. -/
def Spec.Tex.show (fixed : ℕ → ℝ → Text) : Spec.Tex → Text
  | .num n v => fixed n v
  | .one => ['1']
  | .time => ['t']
  | .paren a => ['('] ++ a.show fixed ++ [')']
  | .sum a b => a.show fixed ++ ['+'] ++ b.show fixed
  | .diff a b => a.show fixed ++ ['-'] ++ b.show fixed
  | .times a b => a.show fixed ++ b.show fixed
  | .square a => a.show fixed ++ ['^', '2']
  | .root a => "\\sqrt{".toList ++ a.show fixed ++ ['}']
  | .sin a => "\\sin{".toList ++ a.show fixed ++ ['}']
  | .cos a => "\\cos{".toList ++ a.show fixed ++ ['}']
  | .decay a => "e^{-".toList ++ a.show fixed ++ ['}']
  | .bracket a => "\\left[".toList ++ a.show fixed ++ "\\right]".toList

/-- The value of a formula at a time. -/
noncomputable def Spec.Tex.value (t : ℝ) : Spec.Tex → ℝ
  | .num _ v => v
  | .one => 1
  | .time => t
  | .paren a => a.value t
  | .sum a b => a.value t + b.value t
  | .diff a b => a.value t - b.value t
  | .times a b => a.value t * b.value t
  | .square a => a.value t ^ 2
  | .root a => √(a.value t)
  | .sin a => Real.sin (a.value t)
  | .cos a => Real.cos (a.value t)
  | .decay a => Real.exp (-a.value t)
  | .bracket a => a.value t

/-- The pieces of the title, letter by letter. -/
theorem title_pieces :
    "$f(t)=".toList = ['$', 'f', '(', 't', ')', '='] ∧
    "+e^{-(".toList = ['+', 'e', '^', '{', '-', '('] ∧
    ")(".toList = [')', '('] ∧
    ")t}\\left[".toList = [')', 't', '}', '\\', 'l', 'e', 'f', 't', '['] ∧
    "\\sin{\\sqrt{1-".toList = ['\\', 's', 'i', 'n', '{', '\\', 's', 'q', 'r', 't', '{', '1', '-'] ∧
    "^2}".toList = ['^', '2', '}'] ∧
    "t}+".toList = ['t', '}', '+'] ∧
    "\\cos{\\sqrt{1-".toList = ['\\', 'c', 'o', 's', '{', '\\', 's', 'q', 'r', 't', '{', '1', '-'] ∧
    "t}\\right]$".toList = ['t', '}', '\\', 'r', 'i', 'g', 'h', 't', ']', '$'] ∧
    "$r^2=".toList = ['$', 'r', '^', '2', '='] ∧
    "$".toList = ['$'] ∧
    ", ".toList = [',', ' '] ∧
    "$T=".toList = ['$', 'T', '='] ∧
    " s$".toList = [' ', 's', '$'] ∧
    "$, $T=".toList = ['$', ',', ' ', '$', 'T', '='] ∧
    "\\sqrt{".toList = ['\\', 's', 'q', 'r', 't', '{'] ∧
    "\\sin{".toList = ['\\', 's', 'i', 'n', '{'] ∧
    "\\cos{".toList = ['\\', 'c', 'o', 's', '{'] ∧
    "e^{-".toList = ['e', '^', '{', '-'] ∧
    "\\left[".toList = ['\\', 'l', 'e', 'f', 't', '['] ∧
    "\\right]".toList = ['\\', 'r', 'i', 'g', 'h', 't', ']'] := by
  decide +kernel

/-- The formula in the title. -/
noncomputable def fitTex (p : Fin 5 → ℝ) : Spec.Tex :=
  .sum (.num 2 (p 0)) (.times (.decay (.times (.paren (.num 3 (p 3))) (.times (.paren (.num 1 (p 4))) .time)))
    (.bracket (.sum
      (.times (.num 2 (p 1)) (.sin (.times (.root (.diff .one (.square (.num 3 (p 3))))) (.times (.num 1 (p 4)) .time))))
      (.times (.num 2 (p 2)) (.cos (.times (.root (.diff .one (.square (.num 3 (p 3))))) (.times (.num 1 (p 4)) .time)))))))

theorem fitTex_value (p : Fin 5 → ℝ) (t : ℝ) : (fitTex p).value t = oscillation p t := by
  simp only [fitTex, Spec.Tex.value, oscillation, fitfunc]
  rw [show -(p 3 * (p 4 * t)) = -p 3 * p 4 * t by ring,
    show √(1 - p 3 ^ 2) * (p 4 * t) = p 4 * √(1 - p 3 ^ 2) * t by ring]

theorem title_text {U : Type} (fixed : ℕ → ℝ → Text) (str : U → Text) (p : Fin 5 → ℝ) (rsq : ℝ) (T : U) :
    osfitTitle fixed str p rsq T =
      "$f(t)=".toList ++ (fitTex p).show fixed ++ "$".toList ++ ['\n'] ++ "$r^2=".toList ++ fixed 3 rsq ++
        "$, $T=".toList ++ str T ++ " s$".toList := by
  unfold osfitTitle fitTex
  simp only [Spec.Tex.show]
  obtain ⟨l0, l1, l2, l3, l4, l5, l6, l7, l8, l9, l10, l11, l12, l13, l14, l15, l16, l17, l18, l19, l20⟩ := title_pieces
  rw [l0, l1, l2, l3, l4, l5, l6, l7, l8, l9, l10, l11, l12, l13, l14, l15, l16, l17, l18, l19, l20]
  simp only [List.append_assoc, List.cons_append, List.nil_append]

/-- **C138.** The title of the figure begins with a formula f(t) whose value, but for the printed digits, is the fitted
function of `get_period` at every time; it ends with the goodness of the fit and the period. -/
theorem C138_title {U : Type} (fixed : ℕ → ℝ → Text) (str : U → Text) (p : Fin 5 → ℝ) (rsq : ℝ) (T : U) :
    ∃ f : Spec.Tex, osfitTitle fixed str p rsq T =
        "$f(t)=".toList ++ f.show fixed ++ "$".toList ++ ['\n'] ++ "$r^2=".toList ++ fixed 3 rsq ++ "$, $T=".toList ++ str T ++
          " s$".toList ∧
      ∀ t, f.value t = oscillation p t := by
  refine ⟨fitTex p, ?_, fitTex_value p⟩
  exact title_text fixed str p rsq T

/-- The hypotheses of the theorems about figures can be met. -/
example : ∃ s : Pyplot, ∃ i k : ℕ, ∃ F G : PlotFigure, s.heap[i]? = some F ∧ F.axes ≠ [] ∧ s.active.getLast? = some k ∧ i ≠ k ∧
    s.heap[k]? = some G ∧ G.axes ≠ [] ∧ ([2, 3] : List ℝ).length = ([0, 1] : List ℝ).length :=
  ⟨⟨[⟨[Pane.empty], 0⟩, ⟨[Pane.empty], 0⟩], [0, 1]⟩, 0, 1, _, _, rfl, by simp, rfl, by simp, rfl, by simp, rfl⟩

/-- The hypotheses of `C138_no_figure_open` can be met. -/
example : ∃ s : Pyplot, ∃ i : ℕ, ∃ F : PlotFigure, s.heap[i]? = some F ∧ F.axes ≠ [] ∧ s.active = [] :=
  ⟨⟨[⟨[Pane.empty], 0⟩], []⟩, 0, _, rfl, by simp, rfl⟩

end BP
