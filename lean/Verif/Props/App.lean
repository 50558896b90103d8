import Verif.Model.App
import Mathlib.Tactic.Linarith
import Mathlib.Tactic.FieldSimp
import Mathlib.Tactic.Ring

/-!
# Properties of app.py (C73, C74, C99) and plot.py (C75)
-/

set_option linter.unusedSimpArgs false

namespace BP

open Real

/-! ## C75 -/

/-- A point of the ellipse with centre `(xc, yc)`, orthonormal directions `ax1`, `ax2` and
semi-axes `a`, `b`. -/
def Spec.OnEllipse (xc yc : ℝ) (ax1 ax2 : Fin 2 → ℝ) (a b : ℝ) (p : ℝ × ℝ) : Prop :=
  (((p.1 - xc) * ax1 0 + (p.2 - yc) * ax1 1) / a) ^ 2 +
    (((p.1 - xc) * ax2 0 + (p.2 - yc) * ax2 1) / b) ^ 2 = 1

theorem mem_ellipse {xc yc : ℝ} {ax1 ax2 : Fin 2 → ℝ} {a b : ℝ} {n : ℕ} {p : ℝ × ℝ}
    (h : p ∈ ellipsePlotData xc yc ax1 ax2 a b n) : ∃ t, p =
      (ax1 0 * (a * cos t) + ax2 0 * (b * sin t) + xc, ax1 1 * (a * cos t) + ax2 1 * (b * sin t) + yc) := by
  unfold ellipsePlotData at h
  obtain ⟨t, _, rfl⟩ := List.mem_map.1 h
  exact ⟨t, rfl⟩

/-- **C75.** Every point of the plotted curve lies on the ellipse with the given centre,
directions and semi-axes. -/
theorem C75_on_ellipse (xc yc : ℝ) (ax1 ax2 : Fin 2 → ℝ) (a b : ℝ) (n : ℕ)
    (h1 : ax1 0 ^ 2 + ax1 1 ^ 2 = 1) (h2 : ax2 0 ^ 2 + ax2 1 ^ 2 = 1)
    (h12 : ax1 0 * ax2 0 + ax1 1 * ax2 1 = 0) (ha : a ≠ 0) (hb : b ≠ 0) :
    ∀ p ∈ ellipsePlotData xc yc ax1 ax2 a b n, Spec.OnEllipse xc yc ax1 ax2 a b p := by
  intro p hp
  obtain ⟨t, rfl⟩ := mem_ellipse hp
  unfold Spec.OnEllipse
  have e1 : (ax1 0 * (a * cos t) + ax2 0 * (b * sin t) + xc - xc) * ax1 0 +
      (ax1 1 * (a * cos t) + ax2 1 * (b * sin t) + yc - yc) * ax1 1 = a * cos t := by
    linear_combination a * cos t * h1 + b * sin t * h12
  have e2 : (ax1 0 * (a * cos t) + ax2 0 * (b * sin t) + xc - xc) * ax2 0 +
      (ax1 1 * (a * cos t) + ax2 1 * (b * sin t) + yc - yc) * ax2 1 = b * sin t := by
    linear_combination b * sin t * h2 + a * cos t * h12
  simp only
  rw [e1, e2, mul_div_cancel_left₀ _ ha, mul_div_cancel_left₀ _ hb]
  exact cos_sq_add_sin_sq t

/-- **C75.** There are `N` points; the first is the end of the first semi-axis and from two
points on the curve is closed: the last point is the first. -/
theorem C75_closed (xc yc : ℝ) (ax1 ax2 : Fin 2 → ℝ) (a b : ℝ) (n : ℕ) :
    (ellipsePlotData xc yc ax1 ax2 a b n).length = n ∧
    (0 < n → (ellipsePlotData xc yc ax1 ax2 a b n)[0]? = some (xc + a * ax1 0, yc + a * ax1 1)) ∧
    (1 < n → (ellipsePlotData xc yc ax1 ax2 a b n)[n - 1]? =
      (ellipsePlotData xc yc ax1 ax2 a b n)[0]?) := by
  refine ⟨by simp [ellipsePlotData, linspace], fun hn => ?_, fun hn => ?_⟩
  · simp only [ellipsePlotData, linspace, List.getElem?_map, List.getElem?_range hn, Option.map_some]
    simp
    constructor <;> ring
  · have h0 : 0 < n := by omega
    have h1 : n - 1 < n := by omega
    have hne : ((n - 1 : ℕ) : ℝ) ≠ 0 := by
      rw [Nat.cast_ne_zero]; omega
    simp only [ellipsePlotData, linspace, List.getElem?_map, List.getElem?_range h1,
      List.getElem?_range h0, Option.map_some]
    rw [mul_div_cancel₀ _ hne]
    simp

/-- the parabola-free unit case -/
example : Spec.OnEllipse 0 0 ![1, 0] ![0, 1] 2 1 (2, 0) := by
  simp [Spec.OnEllipse]

/-! ## C73 -/

/-- **C73 is false**: whenever the callback returns, the graph with id `geometry-plot` gets the
eigenvalue figure and `eigen-plot` gets the geometry figure. -/
theorem C73_figures_swapped (trigger : String) (stored : Dict (Option ℝ))
    (wheel frame : List Row2) (general : List Row1) (options : List String) (slider : ℝ × ℝ)
    (out : List (String × Figure))
    (h : plotUpdate trigger stored wheel frame general options slider = .ok out) :
    ∃ par speeds, out =
      [("geometry-plot", .eigenvalues par speeds (options.contains "stability")),
       ("eigen-plot", .geometry par (options.contains "centers") (options.contains "ellipse"))] := by
  unfold plotUpdate at h
  cases hs : appSpeeds slider.1 slider.2 with
  | error e => rw [hs] at h; cases h
  | ok speeds =>
    rw [hs] at h
    simp only [Except.bind] at h
    cases hp : shownParameters trigger stored wheel frame general with
    | error e => rw [hp] at h; cases h
    | ok par =>
      rw [hp] at h
      simp only [Except.ok.injEq] at h
      exact ⟨par, speeds, h.symm⟩

/-- **C73 (partial).** What holds: both figures are drawn from the same parameters, with the
ticked options and the speeds of the slider. -/
theorem C73_figures_partial (trigger : String) (stored : Dict (Option ℝ))
    (wheel frame : List Row2) (general : List Row1) (options : List String) (slider : ℝ × ℝ)
    (out : List (String × Figure))
    (h : plotUpdate trigger stored wheel frame general options slider = .ok out) :
    ∃ par speeds, shownParameters trigger stored wheel frame general = .ok par ∧
      appSpeeds slider.1 slider.2 = .ok speeds ∧
      (∃ id, (id, Figure.eigenvalues par speeds (decide ("stability" ∈ options))) ∈ out) ∧
      (∃ id, (id, Figure.geometry par (decide ("centers" ∈ options)) (decide ("ellipse" ∈ options))) ∈ out) := by
  unfold plotUpdate at h
  cases hs : appSpeeds slider.1 slider.2 with
  | error e => rw [hs] at h; cases h
  | ok speeds =>
    rw [hs] at h
    simp only [Except.bind] at h
    cases hp : shownParameters trigger stored wheel frame general with
    | error e => rw [hp] at h; cases h
    | ok par =>
      rw [hp] at h
      simp only [Except.ok.injEq] at h
      refine ⟨par, speeds, rfl, rfl, ⟨"geometry-plot", ?_⟩, ⟨"eigen-plot", ?_⟩⟩ <;>
        simp [← h, List.contains_eq_mem]

/-! ## C74 -/

/-- **C74.** The tables that are filled for a bicycle: each cell shows the parameter its row
and column name; the tilt is shown in degrees without its decimals. -/
theorem C74_tables_filled (par : Dict ℝ) (lam : ℝ) (hl : par.find? "lam" = some lam) :
    populateTables par = .ok
      ([⟨"Radius [m]:", par.find? "rF", par.find? "rR"⟩,
        ⟨"Mass [kg]:", par.find? "mF", par.find? "mR"⟩,
        ⟨"Moment Ixx [kg*m²]:", par.find? "IFxx", par.find? "IRxx"⟩,
        ⟨"Moment Iyy [kg*m²]:", par.find? "IFyy", par.find? "IRyy"⟩],
       [⟨"Center of Mass X [m]:", par.find? "xB", par.find? "xH"⟩,
        ⟨"Center of Mass Z [m]:", par.find? "zB", par.find? "zH"⟩,
        ⟨"Total Mass [kg]:", par.find? "mB", par.find? "mH"⟩,
        ⟨"Moment Ixx [kg*m²]:", par.find? "IBxx", par.find? "IHxx"⟩,
        ⟨"Moment Iyy [kg*m²]:", par.find? "IByy", par.find? "IHyy"⟩,
        ⟨"Moment Izz [kg*m²]:", par.find? "IBzz", par.find? "IHzz"⟩,
        ⟨"Moment Ixz [kg*m²]:", par.find? "IBxz", par.find? "IHxz"⟩],
       [⟨"Wheel Base [m]:", par.find? "w"⟩, ⟨"Trail [m]:", par.find? "c"⟩,
        ⟨"Steer Axis Tilt [degrees]:", some (pyInt (lam * 180 / π) : ℝ)⟩,
        ⟨"Gravity [N/kg]:", par.find? "g"⟩]) := by
  have h8 : (List.range 8).filter (· < 4) = [0, 1, 2, 3] := by decide
  have h8' : (List.range 8).filter (¬ · < 4) = [4, 5, 6, 7] := by decide
  have h12 : (List.range' 12 14).filter (· < 19) = [12, 13, 14, 15, 16, 17, 18] := by decide
  have h12' : (List.range' 12 14).filter (¬ · < 19) = [19, 20, 21, 22, 23, 24, 25] := by decide
  have h4 : List.range' 8 4 = [8, 9, 10, 11] := by decide
  unfold populateTables generalTable wheelTable frameTable
  rw [h8, h8', h12, h12', h4]
  simp [cell, parList, hl, zipRows, wheelLabels, frameLabels, generalLabels, rad2deg]

/-- Without a tilt the callback raises `TypeError`. -/
theorem C74_tables_raise (par : Dict ℝ) (hl : par.find? "lam" = none) :
    populateTables par = .error .typeError := by
  have h4 : List.range' 8 4 = [8, 9, 10, 11] := by decide
  unfold populateTables generalTable
  rw [h4]
  simp [cell, parList, hl]

/-- **C74.** What the figures are drawn from after an edit: each parameter has the value of its
cell, the tilt converted to radians; all other parameters are those of the bicycle file. -/
theorem C74_tables_read (trigger : String) (ht : trigger ≠ "bike-dropdown.value")
    (stored : Dict (Option ℝ)) (w0 w1 w2 w3 f0 f1 f2 f3 f4 f5 f6 : Row2) (g0 g1 g2 g3 : Row1)
    (deg : ℝ) (hd : g2.data = some deg) :
    ∃ par, shownParameters trigger stored [w0, w1, w2, w3] [f0, f1, f2, f3, f4, f5, f6]
        [g0, g1, g2, g3] = .ok par ∧
      (par.find? "rF" = some w0.fst ∧ par.find? "mF" = some w1.fst ∧ par.find? "IFxx" = some w2.fst ∧
        par.find? "IFyy" = some w3.fst) ∧
      (par.find? "rR" = some w0.snd ∧ par.find? "mR" = some w1.snd ∧ par.find? "IRxx" = some w2.snd ∧
        par.find? "IRyy" = some w3.snd) ∧
      (par.find? "xB" = some f0.fst ∧ par.find? "zB" = some f1.fst ∧ par.find? "mB" = some f2.fst ∧
        par.find? "IBxx" = some f3.fst ∧ par.find? "IByy" = some f4.fst ∧
        par.find? "IBzz" = some f5.fst ∧ par.find? "IBxz" = some f6.fst) ∧
      (par.find? "xH" = some f0.snd ∧ par.find? "zH" = some f1.snd ∧ par.find? "mH" = some f2.snd ∧
        par.find? "IHxx" = some f3.snd ∧ par.find? "IHyy" = some f4.snd ∧
        par.find? "IHzz" = some f5.snd ∧ par.find? "IHxz" = some f6.snd) ∧
      (par.find? "w" = some g0.data ∧ par.find? "c" = some g1.data ∧
        par.find? "lam" = some (some (deg * π / 180)) ∧ par.find? "g" = some g3.data) ∧
      ∀ k, k ∉ parList → par.find? k = stored.find? k := by
  have h8 : List.range 8 = [0, 1, 2, 3, 4, 5, 6, 7] := by decide
  have h12 : List.range' 12 14 = [12, 13, 14, 15, 16, 17, 18, 19, 20, 21, 22, 23, 24, 25] := by decide
  have h4 : List.range' 8 4 = [8, 9, 10, 11] := by decide
  have hn : newP [w0, w1, w2, w3] [f0, f1, f2, f3, f4, f5, f6] [g0, g1, g2, g3] = .ok
      [("rF", w0.fst), ("mF", w1.fst), ("IFxx", w2.fst), ("IFyy", w3.fst), ("rR", w0.snd),
       ("mR", w1.snd), ("IRxx", w2.snd), ("IRyy", w3.snd), ("xB", f0.fst), ("zB", f1.fst),
       ("mB", f2.fst), ("IBxx", f3.fst), ("IByy", f4.fst), ("IBzz", f5.fst), ("IBxz", f6.fst),
       ("xH", f0.snd), ("zH", f1.snd), ("mH", f2.snd), ("IHxx", f3.snd), ("IHyy", f4.snd),
       ("IHzz", f5.snd), ("IHxz", f6.snd), ("w", g0.data), ("c", g1.data),
       ("lam", some (deg * π / 180)), ("g", g3.data)] := by
    unfold newP
    rw [h8, h12, h4]
    simp [rowAt, Except.bind, hd, deg2rad, parList, Except.map, List.mapM_cons, bind, pure, Except.pure]
  unfold shownParameters
  rw [if_pos ht, hn]
  refine ⟨_, rfl, ?_⟩
  simp only [Dict.update, List.foldl_cons, List.foldl_nil]
  refine ⟨?_, ?_, ?_, ?_, ?_, fun k hk => ?_⟩
  · simp [Dict.find?_set]
  · simp [Dict.find?_set]
  · simp [Dict.find?_set]
  · simp [Dict.find?_set]
  · simp [Dict.find?_set]
  · simp only [parList, List.mem_cons, List.not_mem_nil, or_false, not_or] at hk
    obtain ⟨h1, h2, h3, h4, h5, h6, h7, h8, h9, h10, h11, h12, h13, h14, h15, h16, h17, h18, h19,
      h20, h21, h22, h23, h24, h25, h26⟩ := hk
    simp only [Dict.find?_set, Ne.symm h1, Ne.symm h2, Ne.symm h3, Ne.symm h4, Ne.symm h5,
      Ne.symm h6, Ne.symm h7, Ne.symm h8, Ne.symm h9, Ne.symm h10, Ne.symm h11, Ne.symm h12,
      Ne.symm h13, Ne.symm h14, Ne.symm h15, Ne.symm h16, Ne.symm h17, Ne.symm h18, Ne.symm h19,
      Ne.symm h20, Ne.symm h21, Ne.symm h22, Ne.symm h23, Ne.symm h24, Ne.symm h25, Ne.symm h26,
      if_false]

/-- **C74.** If the dropdown was used, the tables are ignored. -/
theorem C74_dropdown (stored : Dict (Option ℝ)) (wheel frame : List Row2) (general : List Row1) :
    shownParameters "bike-dropdown.value" stored wheel frame general = .ok stored := by
  simp [shownParameters]

theorem abs_sub_pyInt (x : ℝ) : |x - (pyInt x : ℝ)| < 1 ∧ (x = (pyInt x : ℝ) ↔ ∃ n : ℤ, x = n) := by
  unfold pyInt
  split
  · constructor
    · rw [abs_lt]
      constructor <;> linarith [Int.floor_le x, Int.lt_floor_add_one x]
    · refine ⟨fun h => ⟨_, h⟩, ?_⟩
      rintro ⟨n, rfl⟩; simp
  · constructor
    · rw [abs_lt]
      constructor <;> linarith [Int.le_ceil x, Int.ceil_lt_add_one x]
    · refine ⟨fun h => ⟨_, h⟩, ?_⟩
      rintro ⟨n, rfl⟩; simp

/-- **C74 (partial).** The round trip through the tables: all parameters come back except the
tilt, which is off by less than one degree and comes back exactly iff it is a whole number of
degrees. -/
theorem C74_round_trip_partial (trigger : String) (ht : trigger ≠ "bike-dropdown.value")
    (par : Dict ℝ) (hp : ∀ k ∈ parList, par.has k = true) :
    ∃ wheel frame general shown lam lam', populateTables par = .ok (wheel, frame, general) ∧
      shownParameters trigger (par.map fun e => (e.1, some e.2)) wheel frame general = .ok shown ∧
      (∀ k, k ≠ "lam" → shown.find? k = (par.find? k).map some) ∧
      par.find? "lam" = some lam ∧ shown.find? "lam" = some (some lam') ∧
      |lam - lam'| < π / 180 ∧ (lam' = lam ↔ ∃ n : ℤ, lam * 180 / π = n) := by
  have hf : ∀ k ∈ parList, ∃ x, par.find? k = some x := fun k hk =>
    (Dict.has_iff_exists par k).1 (hp k hk)
  obtain ⟨lam, hl⟩ := hf "lam" (by decide)
  have hmap : ∀ k, Dict.find? (par.map fun e => (e.1, some e.2)) k = (par.find? k).map some := by
    intro k
    clear hp hf hl
    induction par with
    | nil => rfl
    | cons e d ih =>
      obtain ⟨k', v⟩ := e
      simp only [List.map_cons, Dict.find?_cons]
      split
      · rfl
      · exact ih
  have hfilled := C74_tables_filled par lam hl
  obtain ⟨shown, e, ⟨a1, a2, a3, a4⟩, ⟨b1, b2, b3, b4⟩, ⟨c1, c2, c3, c4, c5, c6, c7⟩,
    ⟨d1, d2, d3, d4, d5, d6, d7⟩, ⟨e1, e2, e3, e4⟩, hrest⟩ := C74_tables_read trigger ht
    (par.map fun e => (e.1, some e.2))
    ⟨"Radius [m]:", par.find? "rF", par.find? "rR"⟩
    ⟨"Mass [kg]:", par.find? "mF", par.find? "mR"⟩
    ⟨"Moment Ixx [kg*m²]:", par.find? "IFxx", par.find? "IRxx"⟩
    ⟨"Moment Iyy [kg*m²]:", par.find? "IFyy", par.find? "IRyy"⟩
    ⟨"Center of Mass X [m]:", par.find? "xB", par.find? "xH"⟩
    ⟨"Center of Mass Z [m]:", par.find? "zB", par.find? "zH"⟩
    ⟨"Total Mass [kg]:", par.find? "mB", par.find? "mH"⟩
    ⟨"Moment Ixx [kg*m²]:", par.find? "IBxx", par.find? "IHxx"⟩
    ⟨"Moment Iyy [kg*m²]:", par.find? "IByy", par.find? "IHyy"⟩
    ⟨"Moment Izz [kg*m²]:", par.find? "IBzz", par.find? "IHzz"⟩
    ⟨"Moment Ixz [kg*m²]:", par.find? "IBxz", par.find? "IHxz"⟩
    ⟨"Wheel Base [m]:", par.find? "w"⟩ ⟨"Trail [m]:", par.find? "c"⟩
    ⟨"Steer Axis Tilt [degrees]:", some (pyInt (lam * 180 / π) : ℝ)⟩
    ⟨"Gravity [N/kg]:", par.find? "g"⟩ (pyInt (lam * 180 / π) : ℝ) rfl
  have hpi := Real.pi_pos
  obtain ⟨hlt, hiff⟩ := abs_sub_pyInt (lam * 180 / π)
  refine ⟨_, _, _, shown, lam, (pyInt (lam * 180 / π) : ℝ) * π / 180, hfilled, e, ?_, hl, e3, ?_, ?_⟩
  · intro k hk
    by_cases hkp : k ∈ parList
    · have hsome : ∀ k ∈ parList, some (par.find? k) = (par.find? k).map some := by
        intro k hk
        obtain ⟨x, hx⟩ := hf k hk
        rw [hx]; rfl
      rw [← hsome k hkp]
      simp only [parList, List.mem_cons, List.not_mem_nil, or_false] at hkp
      rcases hkp with rfl | rfl | rfl | rfl | rfl | rfl | rfl | rfl | rfl | rfl | rfl | rfl | rfl | rfl |
        rfl | rfl | rfl | rfl | rfl | rfl | rfl | rfl | rfl | rfl | rfl | rfl <;> first | assumption | exact absurd rfl hk
    · rw [hrest k hkp, hmap]
  · have h1 : lam - (pyInt (lam * 180 / π) : ℝ) * π / 180 =
        (lam * 180 / π - (pyInt (lam * 180 / π) : ℝ)) * (π / 180) := by
      field_simp
    rw [h1, abs_mul, abs_of_pos (by positivity : 0 < π / 180)]
    calc _ < 1 * (π / 180) := by
          apply mul_lt_mul_of_pos_right hlt (by positivity)
      _ = π / 180 := one_mul _
  · rw [← hiff]
    constructor
    · intro h
      field_simp
      field_simp at h
      linarith
    · intro h
      field_simp at h ⊢
      linarith

/-- **C74 is false** for the tilt of the benchmark bicycle, 18 degrees, made a little larger. -/
theorem C74_tilt_truncated : pyInt (rad2deg (deg2rad 18.5)) = 18 := by
  have : rad2deg (deg2rad 18.5) = 18.5 := by
    unfold rad2deg deg2rad
    have := Real.pi_ne_zero
    field_simp
  rw [this, pyInt, if_pos (by norm_num), Int.floor_eq_iff]
  norm_num

/-- a dictionary with all parameters -/
example : ∀ k ∈ parList, Dict.has (parList.map fun k => (k, (1 : ℝ))) k = true := by
  intro k hk
  rw [Dict.has_iff_mem_keys]
  simpa [Dict.keys, Function.comp_def] using hk

/-! ## C99 -/

/-- **C99.** The speeds of the eigenvalue figure: `⌊10 (hi - lo)⌋` equally spaced ones from the
lower to the upper bound of the slider, both included if they are at least 0.2 apart; equal
bounds give no speed at all. -/
theorem C99_speeds (lo hi : ℝ) (h : lo ≤ hi) :
    ∃ speeds, appSpeeds lo hi = .ok speeds ∧ speeds.length = ⌊(hi - lo) * 10⌋₊ ∧
      (∀ v ∈ speeds, lo ≤ v ∧ v ≤ hi) ∧
      (1 / 10 ≤ hi - lo → speeds[0]? = some lo) ∧
      (1 / 5 ≤ hi - lo → speeds[speeds.length - 1]? = some hi ∧
        ∀ i, i + 1 < speeds.length → speeds.getD (i + 1) 0 - speeds.getD i 0 =
          (hi - lo) / (speeds.length - 1)) ∧
      (lo = hi → speeds = []) := by
  have h0 : 0 ≤ (hi - lo) / 0.1 := div_nonneg (by linarith) (by norm_num)
  have e : (hi - lo) / 0.1 = (hi - lo) * 10 := by norm_num; ring
  have hn : pyInt ((hi - lo) / 0.1) = ⌊(hi - lo) * 10⌋ := by rw [pyInt, if_pos h0, e]
  have hnn : 0 ≤ ⌊(hi - lo) * 10⌋ := by rw [← e]; exact Int.floor_nonneg.2 h0
  have hN : (⌊(hi - lo) * 10⌋).toNat = ⌊(hi - lo) * 10⌋₊ := rfl
  set N := ⌊(hi - lo) * 10⌋₊ with hNdef
  refine ⟨linspace lo hi N, ?_, by simp [linspace], ?_, ?_, ?_, ?_⟩
  · unfold appSpeeds
    simp only [hn]
    rw [if_neg (not_lt.2 hnn), hN]
  · intro v hv
    unfold linspace at hv
    obtain ⟨i, hi', rfl⟩ := List.mem_map.1 hv
    rw [List.mem_range] at hi'
    have hstep : 0 ≤ (hi - lo) / ((N - 1 : ℕ) : ℝ) := div_nonneg (by linarith) (Nat.cast_nonneg _)
    constructor
    · linarith [mul_nonneg (Nat.cast_nonneg (α := ℝ) i) hstep]
    · have hi1 : (i : ℝ) ≤ ((N - 1 : ℕ) : ℝ) := Nat.cast_le.2 (by omega)
      have h2 : (i : ℝ) * ((hi - lo) / ((N - 1 : ℕ) : ℝ)) ≤ hi - lo := by
        rw [mul_div_assoc']
        apply div_le_of_le_mul₀ (Nat.cast_nonneg _) (by linarith)
        rw [mul_comm]
        exact mul_le_mul_of_nonneg_left hi1 (by linarith)
      linarith
  · intro h1
    have : 0 < N := Nat.floor_pos.2 (by linarith)
    simp [linspace, this]
  · intro h1
    have h2 : 2 ≤ N := Nat.le_floor (by push_cast; linarith)
    have hne : ((N - 1 : ℕ) : ℝ) ≠ 0 := by rw [Nat.cast_ne_zero]; omega
    have hlen : (linspace lo hi N).length = N := by simp [linspace]
    rw [hlen]
    refine ⟨?_, fun i hi' => ?_⟩
    · simp only [linspace, List.getElem?_map, List.getElem?_range (by omega : N - 1 < N), Option.map_some]
      rw [mul_div_cancel₀ _ hne]; simp
    · have hi0 : i < N := by omega
      simp only [linspace, List.getD_eq_getElem?_getD, List.getElem?_map, List.getElem?_range hi',
        List.getElem?_range hi0, Option.map_some, Option.getD_some]
      rw [Nat.cast_sub (by omega : 1 ≤ N)]
      push_cast
      ring
  · intro heq
    have : N = 0 := by rw [hNdef, heq]; simp
    simp [linspace, this]

end BP
