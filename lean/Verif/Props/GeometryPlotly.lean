import Verif.Props.GeometryEllipse

/-!
# C119: the geometry plot with plotly
-/

set_option linter.unusedSimpArgs false

namespace BP

open Real Matrix Spec

/-- What the plotly method returns, piece by piece. -/
theorem plotly_pieces {eig : Mat3 → Vec3 × Mat3} {argsort : Vec3 → Fin 3 → Fin 3} {cmap : List String}
    {s : Drawable} {o : GeometryOptions} {traces : List Trace}
    (h : plotBicycleGeometryPlotly eig argsort cmap s o = .ok traces) :
    ∃ parts colors ells ellipses segs coms stick,
      drawnParts s.par = .ok parts ∧ plotlyColors cmap parts = .ok colors ∧
      (if o.inertiaEllipse then allEllipses eig argsort s.par none parts else .ok []) = .ok ells ∧
      (ells.mapM fun e => (colors.get e.1).map fun c =>
        Trace.lines (plotlyEllipse e.2.1 e.2.2) ("Inertia of " ++ e.1) c) = .ok ellipses ∧
      pendulumSegments s o = .ok segs ∧
      (if o.centerOfMass then plotlyComs s.par colors parts else .ok []) = .ok coms ∧
      plotlyStick s = .ok stick ∧
      traces = ellipses ++
        [.lines [(-s.par.getD "rR" 0, 0), (s.par.getD "w" 0 + s.par.getD "rF" 0, 0)] "Ground" "lightgrey",
         .lines (circlePoints (s.par.getD "rR" 0) 0 (s.par.getD "rR" 0)) "Rear wheel" "grey",
         .lines (circlePoints (s.par.getD "rF" 0) (s.par.getD "w" 0) (s.par.getD "rF" 0)) "Front wheel" "grey",
         .lines (frameAndAxis s.par).1 "Bicycle" "black", .lines (frameAndAxis s.par).2 "Steer axis" "dodgerblue"] ++
        (segs.flatMap fun e => e.2.map fun g => .lines [g.1, g.2] "Pendulum" "") ++ coms ++ stick := by
  unfold plotBicycleGeometryPlotly at h
  obtain ⟨parts, h1, h⟩ := ebind_ok h
  obtain ⟨colors, h0, h⟩ := ebind_ok h
  obtain ⟨ells, h2, h⟩ := ebind_ok h
  obtain ⟨ellipses, h3, h⟩ := ebind_ok h
  obtain ⟨u, _, h⟩ := ebind_ok h
  obtain ⟨segs, h4, h⟩ := ebind_ok h
  obtain ⟨coms, h6, h⟩ := ebind_ok h
  obtain ⟨stick, h7, h⟩ := ebind_ok h
  cases h
  exact ⟨parts, colors, ells, ellipses, segs, coms, stick, h1, h0, h2, h3, h4, h6, h7, rfl⟩

/-- A closed polygon of 100 points on the circle about `c` with radius `r`, at equal angles. -/
def Spec.ClosedCircle (c : ℝ × ℝ) (r : ℝ) (pts : List (ℝ × ℝ)) : Prop :=
  pts.length = 100 ∧ pts.head? = pts.getLast? ∧ pts.head? = some (c.1 + r, c.2) ∧
  (∀ q ∈ pts, (q.1 - c.1) ^ 2 + (q.2 - c.2) ^ 2 = r ^ 2) ∧
  ∀ (i : ℕ) (p q : ℝ × ℝ), pts[i]? = some p → pts[i + 1]? = some q →
    (q.1 - p.1) ^ 2 + (q.2 - p.2) ^ 2 = (2 * r * sin (π / 99)) ^ 2

theorem circlePoints_get (R xc yc : ℝ) (i : ℕ) (hi : i < 100) :
    (circlePoints R xc yc)[i]? = some (R * cos (2 * π * i / 99) + xc, R * sin (2 * π * i / 99) + yc) := by
  simp only [circlePoints, linspace, List.getElem?_map, List.getElem?_range hi, Option.map_some]
  have : (0 : ℝ) + (i : ℝ) * ((2 * π - 0) / ((100 - 1 : ℕ) : ℝ)) = 2 * π * i / 99 := by
    push_cast; norm_num; ring
  rw [this]

theorem circlePoints_length (R xc yc : ℝ) : (circlePoints R xc yc).length = 100 := by
  simp [circlePoints, linspace]

theorem circlePoints_spec (R xc yc : ℝ) : ClosedCircle (xc, yc) R (circlePoints R xc yc) := by
  have hlen := circlePoints_length R xc yc
  have h0 : (circlePoints R xc yc).head? = some (xc + R, yc) := by
    rw [List.head?_eq_getElem?, circlePoints_get _ _ _ 0 (by norm_num)]
    simp [add_comm]
  refine ⟨hlen, ?_, h0, ?_, ?_⟩
  · rw [h0, List.getLast?_eq_getElem?, hlen, circlePoints_get _ _ _ 99 (by norm_num)]
    have : 2 * π * ((99 : ℕ) : ℝ) / 99 = 2 * π := by push_cast; field_simp
    rw [this]
    simp [add_comm]
  · intro q hq
    obtain ⟨t, _, rfl⟩ := List.mem_map.1 hq
    dsimp only
    linear_combination R ^ 2 * sin_sq_add_cos_sq t
  · intro i p q hp hq
    have hi : i + 1 < 100 := by
      rw [← hlen]; exact (List.getElem?_eq_some_iff.1 hq).1
    rw [circlePoints_get _ _ _ i (by omega)] at hp
    rw [circlePoints_get _ _ _ (i + 1) hi] at hq
    cases hp
    cases hq
    dsimp only
    have e : 2 * π * ((i + 1 : ℕ) : ℝ) / 99 = 2 * π * (i : ℝ) / 99 + 2 * (π / 99) := by push_cast; ring
    rw [e, cos_add, sin_add, cos_two_mul, sin_two_mul]
    have h1 := sin_sq_add_cos_sq (2 * π * (i : ℝ) / 99)
    have h2 := sin_sq_add_cos_sq (π / 99)
    generalize cos (2 * π * (i : ℝ) / 99) = a at *
    generalize sin (2 * π * (i : ℝ) / 99) = b at *
    generalize cos (π / 99) = u at *
    generalize sin (π / 99) = v at *
    have hb : b ^ 2 = 1 - a ^ 2 := by linarith
    have hu : u ^ 2 = 1 - v ^ 2 := by linarith
    have e1 : (R * (a * (2 * u ^ 2 - 1) - b * (2 * v * u)) + xc - (R * a + xc)) ^ 2 +
        (R * (b * (2 * u ^ 2 - 1) + a * (2 * v * u)) + yc - (R * b + yc)) ^ 2 =
        R ^ 2 * (a ^ 2 + b ^ 2) * ((2 * u ^ 2 - 2) ^ 2 + 4 * v ^ 2 * u ^ 2) := by ring
    rw [e1, hb, hu]
    ring

/-- **C119.** Whatever the options, a returned figure shows the ground, the frame and the steer axis as
the matplotlib figure does (see C118), and the wheels as closed polygons on their circles. -/
theorem C119_bicycle_drawn (eig : Mat3 → Vec3 × Mat3) (argsort : Vec3 → Fin 3 → Fin 3)
    (cmap : List String) (s : Drawable) (o : GeometryOptions) (traces : List Trace)
    (h : plotBicycleGeometryPlotly eig argsort cmap s o = .ok traces) (w c lam rR rF : ℝ)
    (hp : w = s.par.getD "w" 0 ∧ c = s.par.getD "c" 0 ∧ lam = s.par.getD "lam" 0 ∧
      rR = s.par.getD "rR" 0 ∧ rF = s.par.getD "rF" 0) :
    Trace.lines [(-rR, 0), (w + rF, 0)] "Ground" "lightgrey" ∈ traces ∧
    (∃ pts, Trace.lines pts "Rear wheel" "grey" ∈ traces ∧ ClosedCircle (0, rR) rR pts) ∧
    (∃ pts, Trace.lines pts "Front wheel" "grey" ∈ traces ∧ ClosedCircle (w, rF) rF pts) ∧
    ∃ a b : ℝ × ℝ, Trace.lines [(0, rR), a, b, (w, rF)] "Bicycle" "black" ∈ traces ∧
      (cos lam ≠ 0 → a.2 ≠ b.2 → Trace.lines [b, (w + c, 0)] "Steer axis" "dodgerblue" ∈ traces) := by
  obtain ⟨parts, colors, ells, ellipses, segs, coms, stick, _, _, _, _, _, _, _, hfig⟩ := plotly_pieces h
  have hfa := frameAndAxis_eq s.par w c lam rR rF hp
  obtain ⟨rfl, rfl, rfl, rfl, rfl⟩ := hp
  generalize s.par.getD "w" 0 = w at *
  generalize s.par.getD "c" 0 = c at *
  generalize s.par.getD "lam" 0 = lam at *
  generalize s.par.getD "rR" 0 = rR at *
  generalize s.par.getD "rF" 0 = rF at *
  refine ⟨by rw [hfig]; simp, ⟨_, by rw [hfig]; simp, circlePoints_spec rR 0 rR⟩,
    ⟨_, by rw [hfig]; simp, circlePoints_spec rF w rF⟩, ?_⟩
  obtain ⟨p1, p2, hpts⟩ : ∃ p1 p2, fundamentalGeometryPlotData w c lam rR rF =
      [(0, -rR), p1, p2, (w, -rF)] := ⟨_, _, rfl⟩
  rw [hpts] at hfa
  refine ⟨(p1.1, -p1.2), (p2.1, -p2.2), ?_, fun hc hne => ?_⟩
  · rw [hfig, hfa]; simp
  · have hg := C83_steer_axis_ground_point w c lam rR rF hc _ p1 p2 _ hpts (by
      intro h'; apply hne; simp [h'])
    rw [hfig, hfa]
    simp [hg, Prod.map]

/-- **C119.** The pendulum axes are the same segments as in the matplotlib figure (see `C118_pendulums`). -/
theorem C119_pendulums (eig : Mat3 → Vec3 × Mat3) (argsort : Vec3 → Fin 3 → Fin 3)
    (cmap : List String) (s : Drawable) (o : GeometryOptions) (traces : List Trace)
    (h : plotBicycleGeometryPlotly eig argsort cmap s o = .ok traces) :
    ∃ (segs : List (String × List ((ℝ × ℝ) × (ℝ × ℝ)))) (before after : List Trace),
      ((¬∃ e, PendulumsShown s o e) → segs = []) ∧
      (∀ e, PendulumsShown s o e → List.Forall₂ (fun pr sg => sg.1 = pr.1 ∧
        MeasuredLines e.intercepts e.inertias s.par pr.1 pr.2 sg.2) e.slopes segs) ∧
      traces = before ++ (segs.flatMap fun e => e.2.map fun g => Trace.lines [g.1, g.2] "Pendulum" "") ++ after := by
  obtain ⟨parts, colors, ells, ellipses, segs, coms, stick, _, _, _, _, h4, _, _, hfig⟩ := plotly_pieces h
  obtain ⟨p1, p2⟩ := pendulumSegments_spec h4
  rw [List.append_assoc (_ ++ _ ++ _)] at hfig
  obtain ⟨before, after, hba⟩ : ∃ b a, traces = b ++ (segs.flatMap fun e => e.2.map fun g =>
    Trace.lines [g.1, g.2] "Pendulum" "") ++ a := ⟨_, _, hfig⟩
  exact ⟨segs, before, after, p1, p2, hba⟩

/-! ## Colours and mass centres -/

theorem nthColor_mapM {cmap : List String} : ∀ (parts : List String) (k : ℕ),
    (k + parts.length ≤ cmap.length → ∃ l, (parts.zipIdx k).mapM (nthColor cmap) = .ok l ∧
      l.map Prod.fst = parts ∧ ∀ (i : ℕ), i < parts.length → (l.map Prod.snd)[i]? = cmap[k + i]?) ∧
    (k ≤ cmap.length → cmap.length < k + parts.length → (parts.zipIdx k).mapM (nthColor cmap) = .error .indexError) := by
  intro parts
  induction parts with
  | nil =>
    intro k
    refine ⟨fun _ => ⟨[], rfl, rfl, by simp⟩, fun h1 h2 => ?_⟩
    simp at h2; omega
  | cons part parts ih =>
    intro k
    rw [List.zipIdx_cons, List.mapM_cons]
    constructor
    · intro hk
      simp only [List.length_cons] at hk
      have hlt : k < cmap.length := by omega
      obtain ⟨l, hl, h1, h2⟩ := (ih (k + 1)).1 (by omega)
      have hn : nthColor cmap (part, k) = .ok (part, cmap[k]) := by
        unfold nthColor; simp [List.getElem?_eq_getElem hlt]
      rw [hn, hl]
      refine ⟨(part, cmap[k]) :: l, rfl, by simp [h1], ?_⟩
      intro i hi
      cases i with
      | zero => simp [List.getElem?_eq_getElem hlt]
      | succ i =>
        simp only [List.length_cons] at hi
        rw [List.map_cons, List.getElem?_cons_succ, h2 i (by omega)]
        congr 1
        omega
    · intro hk hl
      simp only [List.length_cons] at hl
      by_cases hlt : k < cmap.length
      · have hn : nthColor cmap (part, k) = .ok (part, cmap[k]) := by
          unfold nthColor; simp [List.getElem?_eq_getElem hlt]
        rw [hn, (ih (k + 1)).2 hlt (by omega)]
        rfl
      · have hn : nthColor cmap (part, k) = .error .indexError := by
          unfold nthColor
          rw [List.getElem?_eq_none (by simpa using hlt)]
        rw [hn]
        rfl

/-- **C119 fails.** The colours run out: with more parts than there are colours (plotly's list has eleven)
the method raises IndexError, whatever is to be drawn. -/
theorem C119_too_many_parts (eig : Mat3 → Vec3 × Mat3) (argsort : Vec3 → Fin 3 → Fin 3)
    (cmap : List String) (s : Drawable) (o : GeometryOptions) (parts : List String)
    (hparts : drawnParts s.par = .ok parts) (hl : cmap.length < parts.length) :
    plotBicycleGeometryPlotly eig argsort cmap s o = .error .indexError := by
  unfold plotBicycleGeometryPlotly plotlyColors
  rw [hparts]
  simp only [Except.bind]
  rw [(nthColor_mapM parts 0).2 (Nat.zero_le _) (by omega)]
  rfl

theorem plotlyColors_ok {cmap : List String} {parts : List String} (hl : parts.length ≤ cmap.length) :
    ∃ colors, plotlyColors cmap parts = .ok colors ∧ (∀ p, colors.has p = true ↔ p ∈ parts) ∧
      (parts.Nodup → ∀ (i : ℕ) (p : String), parts[i]? = some p → colors.find? p = cmap[i]?) := by
  obtain ⟨l, h1, h2, h3⟩ := (nthColor_mapM (cmap := cmap) parts 0).1 (by omega)
  unfold plotlyColors
  rw [h1]
  refine ⟨_, rfl, ?_, ?_⟩
  · intro p
    rw [Dict.has, foldl_set_find? Prod.fst Prod.snd, ← h2, List.mem_map]
    cases hf : l.reverse.find? fun e => e.1 = p with
    | none =>
      rw [List.find?_eq_none] at hf
      have : Dict.find? ([] : Dict String) p = none := rfl
      simp only [Option.map_none, this, Option.or_none, Option.isSome_none, Bool.false_eq_true, false_iff]
      rintro ⟨e, he, rfl⟩
      have := hf e (by simpa using he)
      simp at this
    | some e =>
      have hm := List.mem_of_find?_eq_some hf
      have he := List.find?_some hf
      simp only [decide_eq_true_eq] at he
      simp only [Option.map_some, Option.some_or, Option.isSome_some, true_iff]
      exact ⟨e, by simpa using hm, he⟩
  · intro hn i p hi
    have hlen : l.length = parts.length := by rw [← h2]; simp
    have hip : i < parts.length := (List.getElem?_eq_some_iff.1 hi).1
    have h4 := h3 i hip
    have hfst : (l.map Prod.fst)[i]? = some p := by rw [h2, hi]
    rw [List.getElem?_map] at h4 hfst
    have hil : i < l.length := by omega
    rw [List.getElem?_eq_getElem hil] at h4 hfst
    simp only [Option.map_some, Option.some.injEq, Nat.zero_add] at h4 hfst
    rw [foldl_set_find? Prod.fst Prod.snd, ← h4]
    have : l.reverse.find? (fun e => e.1 = p) = some l[i] := by
      cases hf : l.reverse.find? fun e => e.1 = p with
      | none =>
        rw [List.find?_eq_none] at hf
        have := hf l[i] (by simp)
        simp [hfst] at this
      | some e =>
        have hm := List.mem_of_find?_eq_some hf
        have he := List.find?_some hf
        simp only [decide_eq_true_eq] at he
        rw [List.mem_reverse] at hm
        have hnl : (l.map Prod.fst).Nodup := by rw [h2]; exact hn
        have := List.inj_on_of_nodup_map hnl hm (List.getElem_mem hil) (by rw [he, hfst])
        rw [this]
    rw [this]
    rfl

/-- A quarter of the circle of 3 cm about `c`: 100 points from the angle `k π / 2` on. -/
noncomputable def Spec.arc (c : ℝ × ℝ) (k : ℝ) : List (ℝ × ℝ) :=
  (List.range 100).map fun i : ℕ => (c.1 + 0.03 * cos ((k + (i : ℝ) / 99) * (π / 2)),
    c.2 + 0.03 * sin ((k + (i : ℝ) / 99) * (π / 2)))

/-- The symbol of a mass centre: four quarters of a circle and its radii, and the label beside it. -/
noncomputable def Spec.massSymbol (c : ℝ × ℝ) (color label : String) : List Trace :=
  [.lines [c, (c.1 + 0.03, c.2)] "" color, .lines [c, (c.1, c.2 + 0.03)] "" color,
   .lines (arc c 0) "" color, .lines (arc c 1) "" color, .lines (arc c 2) "" color,
   .lines [(c.1 - 0.03, c.2), c] "" color, .lines [(c.1, c.2 - 0.03), c] "" color,
   .lines (arc c 3) "" color, .lines [c, c] "COM" color, .note (c.1 + 0.055, c.2 + 0.055) label]

theorem plotlyCom_eq (c : ℝ × ℝ) (color label : String) : plotlyCom c color label = massSymbol c color label := by
  have hq : ∀ (a b k : ℝ), a = k * (π / 2) → b = (k + 1) * (π / 2) → quarter 0.03 c.1 c.2 a b = arc c k := by
    intro a b k ha hb
    unfold quarter linspace arc
    rw [List.map_map]
    refine List.map_congr_left fun i _ => ?_
    have : a + (i : ℝ) * ((b - a) / ((100 - 1 : ℕ) : ℝ)) = (k + (i : ℝ) / 99) * (π / 2) := by
      rw [ha, hb]; push_cast; ring
    simp only [Function.comp, this]
    rw [add_comm, add_comm _ c.2]
  unfold plotlyCom massSymbol
  dsimp only
  rw [hq 0 (0.5 * π) 0 (by ring) (by ring), hq (0.5 * π) π 1 (by ring) (by ring),
    hq π (1.5 * π) 2 (by ring) (by ring), hq (1.5 * π) (2 * π) 3 (by ring) (by ring)]

theorem plotlyComs_spec {par : Dict ℝ} {colors : Dict String} {parts : List String} {l : List Trace}
    (h : plotlyComs par colors parts = .ok l) :
    (∀ p ∈ massCenterLabels parts, colors.has p = true) ∧
    l = (massCenterLabels parts).flatMap fun part => massSymbol (drawnCenter par part) (colors.getD part "") part := by
  unfold plotlyComs at h
  obtain ⟨w, hw, h⟩ := ebind_ok h
  obtain ⟨rF, hrF, h⟩ := ebind_ok h
  obtain ⟨cF, hcF, h⟩ := ebind_ok h
  obtain ⟨rR, hrR, h⟩ := ebind_ok h
  obtain ⟨cR, hcR, h⟩ := ebind_ok h
  obtain ⟨rest, hrest, h⟩ := ebind_ok h
  obtain ⟨hm, hh, h⟩ := emap_ok h
  have hw := get_getD hw
  have hrF := get_getD hrF
  have hrR := get_getD hrR
  have hcF := get_ok hcF
  have hcR := get_ok hcR
  have hall := mapM_ok_forall₂ hrest
  have hfilter : (parts.filter fun x => decide ¬(x = "R" ∨ x = "F" ∨ x = "D")) =
      parts.filter fun x => decide (x ≠ "R" ∧ x ≠ "F" ∧ x ≠ "D") := by
    congr 1; funext x; simp [not_or]
  rw [hfilter] at hall
  have key : ∀ (ps : List String) (out : List (List Trace)),
      (∀ p ∈ ps, p ≠ "R" ∧ p ≠ "F" ∧ p ≠ "D") →
      List.Forall₂ (fun part b => ((par.get ("x" ++ part)).bind fun x => (par.get ("z" ++ part)).bind fun z =>
        (colors.get part).map fun c => plotlyCom (x, -z) c part) = .ok b) ps out →
      (∀ p ∈ ps, colors.has p = true) ∧
      out.flatten = ps.flatMap fun part => massSymbol (drawnCenter par part) (colors.getD part "") part := by
    intro ps out hps hF
    induction hF with
    | nil => simp
    | @cons p b ps out hb _ ih =>
      obtain ⟨h1, h2, h3⟩ := hps p (by simp)
      obtain ⟨x, hx, hb⟩ := ebind_ok hb
      obtain ⟨z, hz, hb⟩ := ebind_ok hb
      obtain ⟨c, hc, hb⟩ := emap_ok hb
      have hctr : drawnCenter par p = (x, -z) := by
        simp [drawnCenter, h1, h2, h3, get_getD hx, get_getD hz]
      obtain ⟨ih1, ih2⟩ := ih fun q hq => hps q (List.mem_cons_of_mem _ hq)
      refine ⟨?_, ?_⟩
      · intro q hq
        rcases List.mem_cons.1 hq with rfl | hq
        · exact (Dict.has_iff_exists _ _).2 ⟨c, get_ok hc⟩
        · exact ih1 q hq
      · simp [← hb, ih2, hctr, plotlyCom_eq, Dict.getD_eq_of_find? _ _ _ _ (get_ok hc)]
  obtain ⟨k1, k2⟩ := key _ _ (by
    intro p hp
    rw [List.mem_filter] at hp
    simpa using hp.2) hall
  rw [← h, k2]
  have e1 : plotlyCom (w, rF) cF "F" = massSymbol (drawnCenter par "F") (colors.getD "F" "") "F" := by
    rw [plotlyCom_eq, Dict.getD_eq_of_find? _ _ _ _ hcF]; simp [drawnCenter, hw, hrF]
  have e2 : plotlyCom (0, rR) cR "R" = massSymbol (drawnCenter par "R") (colors.getD "R" "") "R" := by
    rw [plotlyCom_eq, Dict.getD_eq_of_find? _ _ _ _ hcR]; simp [drawnCenter, hrR]
  have hF : colors.has "F" = true := (Dict.has_iff_exists _ _).2 ⟨_, hcF⟩
  have hR : colors.has "R" = true := (Dict.has_iff_exists _ _).2 ⟨_, hcR⟩
  rw [e1, e2]
  by_cases hH : "H" ∈ parts
  · rw [if_pos hH] at hh
    cases hh
    refine ⟨?_, by simp [massCenterLabels, hH]⟩
    intro p hp
    simp only [massCenterLabels, if_pos hH, List.append_nil, List.mem_append, List.mem_cons, List.not_mem_nil, or_false] at hp
    rcases hp with (rfl | rfl) | hp
    · exact hF
    · exact hR
    · exact k1 p hp
  · rw [if_neg hH] at hh
    obtain ⟨x, hx, hh⟩ := ebind_ok hh
    obtain ⟨z, hz, hh⟩ := ebind_ok hh
    obtain ⟨c, hc, hh⟩ := emap_ok hh
    have e3 : massSymbol (drawnCenter par "H") (colors.getD "H" "") "H" = hm := by
      rw [← hh, plotlyCom_eq, Dict.getD_eq_of_find? _ _ _ _ (get_ok hc)]
      simp [drawnCenter, hH, get_getD hx, get_getD hz]
    refine ⟨?_, by simp [massCenterLabels, hH, e3]⟩
    intro p hp
    simp only [massCenterLabels, if_neg hH, List.mem_append, List.mem_cons, List.not_mem_nil, or_false] at hp
    rcases hp with ((rfl | rfl) | hp) | rfl
    · exact hF
    · exact hR
    · exact k1 p hp
    · exact (Dict.has_iff_exists _ _).2 ⟨_, get_ok hc⟩

/-- The label beside a mass centre. -/
def Spec.isNote : Trace → Bool
  | .note .. => true
  | _ => false

/-- **C119.** With `centerOfMass` a returned figure shows the same mass centres as the matplotlib figure:
the wheels', then those of the other parts except the flywheel, each once, at the same places, in
the colour of its part; nothing else is labelled, and without the option nothing is. -/
theorem C119_mass_centers (eig : Mat3 → Vec3 × Mat3) (argsort : Vec3 → Fin 3 → Fin 3)
    (cmap : List String) (s : Drawable) (o : GeometryOptions) (traces : List Trace)
    (h : plotBicycleGeometryPlotly eig argsort cmap s o = .ok traces) :
    ∃ (parts : List String) (color : String → String), drawnParts s.par = .ok parts ∧
      (parts.Nodup → ∀ (i : ℕ) (p : String), parts[i]? = some p → cmap[i]? = some (color p)) ∧
      ∃ before after marks, traces = before ++ marks ++ after ∧
        (before ++ after).countP isNote = 0 ∧
        marks = if o.centerOfMass then (massCenterLabels parts).flatMap fun part =>
          massSymbol (drawnCenter s.par part) (color part) part else [] := by
  obtain ⟨parts, colors, ells, ellipses, segs, coms, stick, h1, h0, h2, h3, h4, h6, h7, hfig⟩ := plotly_pieces h
  have hle : parts.length ≤ cmap.length := by
    by_contra hc
    unfold plotlyColors at h0
    rw [(nthColor_mapM parts 0).2 (Nat.zero_le _) (by omega)] at h0
    cases h0
  obtain ⟨colors', hc1, hc2, hc3⟩ := plotlyColors_ok hle
  rw [h0] at hc1
  cases hc1
  refine ⟨parts, fun p => colors.getD p "", h1, ?_, ?_⟩
  · intro hn i p hi
    obtain ⟨v, hv⟩ := (Dict.has_iff_exists _ _).1 ((hc2 p).2 (List.mem_of_getElem? hi))
    dsimp only
    rw [← hc3 hn i p hi, hv, Dict.getD_eq_of_find? _ _ _ _ hv]
  · obtain ⟨before, hb⟩ : ∃ b, b = ellipses ++
        [.lines [(-s.par.getD "rR" 0, 0), (s.par.getD "w" 0 + s.par.getD "rF" 0, 0)] "Ground" "lightgrey",
         .lines (circlePoints (s.par.getD "rR" 0) 0 (s.par.getD "rR" 0)) "Rear wheel" "grey",
         .lines (circlePoints (s.par.getD "rF" 0) (s.par.getD "w" 0) (s.par.getD "rF" 0)) "Front wheel" "grey",
         .lines (frameAndAxis s.par).1 "Bicycle" "black", .lines (frameAndAxis s.par).2 "Steer axis" "dodgerblue"] ++
        (segs.flatMap fun e => e.2.map fun g => .lines [g.1, g.2] "Pendulum" "") := ⟨_, rfl⟩
    rw [← hb] at hfig
    refine ⟨before, stick, coms, hfig, ?_, ?_⟩
    · rw [List.countP_append, hb, List.countP_append, List.countP_append]
      have c1 : ellipses.countP isNote = 0 := by
        rw [List.countP_eq_zero]
        intro a ha
        obtain ⟨e, _, he⟩ := mapM_ok_mem h3 ha
        obtain ⟨c, _, rfl⟩ := emap_ok he
        simp [isNote]
      have c2 : (segs.flatMap fun e => e.2.map fun g => Trace.lines [g.1, g.2] "Pendulum" "").countP isNote = 0 := by
        rw [List.countP_eq_zero]
        intro a ha
        obtain ⟨e, _, ha⟩ := List.mem_flatMap.1 ha
        obtain ⟨g, _, rfl⟩ := List.mem_map.1 ha
        simp [isNote]
      have c3 : stick.countP isNote = 0 := by
        unfold plotlyStick at h7
        cases hh : s.human with
        | none => rw [hh] at h7; cases h7; rfl
        | some j =>
          rw [hh] at h7
          obtain ⟨l, _, h7⟩ := ebind_ok h7
          obtain ⟨_, _, rfl⟩ := emap_ok h7
          simp [isNote]
      rw [c1, c2, c3]
      simp [isNote]
    · by_cases hcm : o.centerOfMass = true
      · rw [if_pos hcm] at h6 ⊢
        exact (plotlyComs_spec h6).2
      · rw [if_neg hcm] at h6 ⊢
        cases h6; rfl

/-- **C119 fails.** Without a mass of the fork, no figure with mass centres can be made, whatever else
the bicycle has, although `plot_bicycle_geometry` draws the fork's mass centre in blue
(`C118_mass_centers`): the fork has no colour. -/
theorem C119_fork_without_mass (eig : Mat3 → Vec3 × Mat3) (argsort : Vec3 → Fin 3 → Fin 3)
    (cmap : List String) (s : Drawable) (o : GeometryOptions) (ho : o.centerOfMass = true) (parts : List String)
    (hparts : drawnParts s.par = .ok parts) (hH : "H" ∉ parts) (traces : List Trace) :
    plotBicycleGeometryPlotly eig argsort cmap s o ≠ .ok traces := by
  intro h
  obtain ⟨parts', colors, ells, ellipses, segs, coms, stick, h1, h0, h2, h3, h4, h6, h7, hfig⟩ := plotly_pieces h
  rw [hparts] at h1
  cases h1
  have hle : parts.length ≤ cmap.length := by
    by_contra hc
    unfold plotlyColors at h0
    rw [(nthColor_mapM parts 0).2 (Nat.zero_le _) (by omega)] at h0
    cases h0
  obtain ⟨colors', hc1, hc2, hc3⟩ := plotlyColors_ok hle
  rw [h0] at hc1
  cases hc1
  rw [if_pos ho] at h6
  have := (plotlyComs_spec h6).1 "H" (by simp [massCenterLabels, hH])
  exact hH ((hc2 "H").1 this)

/-- **C119 fails.** Of a rider only the lower leg is drawn. -/
theorem C119_rider_lower_leg_only (eig : Mat3 → Vec3 × Mat3) (argsort : Vec3 → Fin 3 → Fin 3)
    (cmap : List String) (s : Drawable) (o : GeometryOptions) (traces : List Trace)
    (h : plotBicycleGeometryPlotly eig argsort cmap s o = .ok traces) :
    (∀ j, s.human = some j → ∃ foot knee : Vec3,
      yeadonVecToBicycleVec j.foot s.measured s.par = .ok foot ∧
      yeadonVecToBicycleVec j.knee s.measured s.par = .ok knee ∧
      ∃ before, traces = before ++ [.lines [(foot 0, -foot 2), (knee 0, -knee 2)] "" ""] ∧
        plotBicycleGeometryPlotly eig argsort cmap { s with human := none } o = .ok before) := by
  intro j hj
  unfold plotBicycleGeometryPlotly at h
  obtain ⟨parts, h1, h⟩ := ebind_ok h
  obtain ⟨colors, h0, h⟩ := ebind_ok h
  obtain ⟨ells, h2, h⟩ := ebind_ok h
  obtain ⟨ellipses, h3, h⟩ := ebind_ok h
  obtain ⟨u, hu, h⟩ := ebind_ok h
  obtain ⟨segs, h4, h⟩ := ebind_ok h
  obtain ⟨coms, h6, h⟩ := ebind_ok h
  obtain ⟨stick, h7, h⟩ := ebind_ok h
  cases h
  unfold plotlyStick at h7
  rw [hj] at h7
  obtain ⟨l, hl, h7⟩ := ebind_ok h7
  obtain ⟨l2, _, rfl⟩ := emap_ok h7
  unfold limb at hl
  obtain ⟨p, hp, hl⟩ := ebind_ok hl
  obtain ⟨q, hq, rfl⟩ := emap_ok hl
  obtain ⟨foot, hfoot, rfl⟩ := emap_ok hp
  obtain ⟨knee, hknee, rfl⟩ := emap_ok hq
  refine ⟨foot, knee, hfoot, hknee, Exists.intro _ ⟨rfl, ?_⟩⟩
  have h4' : pendulumSegments { s with human := none } o = .ok segs := h4
  unfold plotBicycleGeometryPlotly
  dsimp only
  rw [h1]
  simp only [Except.bind]
  rw [h0]
  dsimp only
  rw [h2]
  dsimp only
  rw [h3]
  dsimp only
  rw [hu]
  dsimp only
  rw [h4']
  dsimp only
  rw [h6]
  dsimp only [plotlyStick]
  rw [List.append_nil]

/-! ## The ellipses -/

/-- **C119.** With `inertiaEllipse` the figure starts with one closed curve of 100 points for each part,
in order, named after the part, in its colour and with its centre at the part's mass centre. -/
theorem C119_ellipse_centers (eig : Mat3 → Vec3 × Mat3) (argsort : Vec3 → Fin 3 → Fin 3)
    (cmap : List String) (s : Drawable) (o : GeometryOptions) (traces : List Trace)
    (h : plotBicycleGeometryPlotly eig argsort cmap s o = .ok traces) (ho : o.inertiaEllipse = true)
    (parts : List String) (hparts : drawnParts s.par = .ok parts) (i : ℕ) (part : String) (hi : parts[i]? = some part) :
    ∃ (pts : List (ℝ × ℝ)) (color : String), traces[i]? = some (.lines pts ("Inertia of " ++ part) color) ∧
      (parts.Nodup → cmap[i]? = some color) ∧ pts.length = 100 ∧ pts[0]? = pts[99]? ∧
      ∃ width height angle : ℝ,
        (∀ q ∈ pts, ∃ t, q = ((drawnCenter s.par part).1 + height * cos t * cos angle - width * sin t * sin angle,
          (drawnCenter s.par part).2 + height * cos t * sin angle + width * sin t * cos angle)) ∧
        (∀ (k : ℕ), k < 100 → pts[k]? = some ((drawnCenter s.par part).1 + height * cos (2 * π * k / 99) * cos angle -
            width * sin (2 * π * k / 99) * sin angle,
          (drawnCenter s.par part).2 + height * cos (2 * π * k / 99) * sin angle +
            width * sin (2 * π * k / 99) * cos angle)) ∧
        ∀ I, partInertiaTensor s.par part = .ok I → ∀ y, ellipseYRow (partAxes eig argsort I).2 = some y →
          (width, height, angle) = ellipseSize (partAxes eig argsort I).1 (partAxes eig argsort I).2 y := by
  obtain ⟨parts', colors, ells, ellipses, segs, coms, stick, h1, h0, h2, h3, h4, h6, h7, hfig⟩ := plotly_pieces h
  rw [hparts] at h1
  cases h1
  have hle : parts.length ≤ cmap.length := by
    by_contra hc
    unfold plotlyColors at h0
    rw [(nthColor_mapM parts 0).2 (Nat.zero_le _) (by omega)] at h0
    cases h0
  obtain ⟨colors', hc1, hc2, hc3⟩ := plotlyColors_ok hle
  rw [h0] at hc1
  cases hc1
  rw [if_pos ho] at h2
  obtain ⟨hl1, hg1⟩ := forall₂_getElem? (allEllipses_spec h2)
  obtain ⟨hl2, hg2⟩ := forall₂_getElem? (mapM_ok_forall₂ h3)
  obtain ⟨e, he, e1, e2, e3⟩ := hg1 i part hi
  obtain ⟨tr, htr, htr'⟩ := hg2 i e he
  obtain ⟨c, hc, rfl⟩ := emap_ok htr'
  have hil : i < ellipses.length := (List.getElem?_eq_some_iff.1 htr).1
  have hpts : ∀ (k : ℕ), k < 100 → (plotlyEllipse e.2.1 e.2.2)[k]? =
      some ((drawnCenter s.par part).1 + e.2.2.2.1 * cos (2 * π * k / 99) * cos e.2.2.2.2 -
            e.2.2.1 * sin (2 * π * k / 99) * sin e.2.2.2.2,
          (drawnCenter s.par part).2 + e.2.2.2.1 * cos (2 * π * k / 99) * sin e.2.2.2.2 +
            e.2.2.1 * sin (2 * π * k / 99) * cos e.2.2.2.2) := by
    intro k hk
    unfold plotlyEllipse ellipsePlotData linspace
    rw [List.map_map, List.getElem?_map, List.getElem?_range hk, Option.map_some, e2]
    have : (0 : ℝ) + (k : ℝ) * ((2 * π - 0) / ((100 - 1 : ℕ) : ℝ)) = 2 * π * k / 99 := by
      push_cast; norm_num; ring
    simp only [Function.comp, this]
    simp
    constructor <;> ring
  have hlen : (plotlyEllipse e.2.1 e.2.2).length = 100 := by simp [plotlyEllipse, ellipsePlotData, linspace]
  refine ⟨plotlyEllipse e.2.1 e.2.2, c, ?_, ?_, hlen, ?_, e.2.2.1, e.2.2.2.1, e.2.2.2.2, ?_, hpts, ?_⟩
  · rw [hfig]
    simp only [List.append_assoc]
    rw [List.getElem?_append_left hil, htr, e1]
  · intro hn
    rw [← hc3 hn i part hi, ← e1]
    exact get_ok hc
  · rw [hpts 0 (by norm_num), hpts 99 (by norm_num)]
    have : 2 * π * ((99 : ℕ) : ℝ) / 99 = 2 * π := by push_cast; field_simp
    rw [this]
    simp
  · intro q hq
    obtain ⟨k, hk, rfl⟩ := List.getElem_of_mem hq
    rw [hlen] at hk
    have := hpts k hk
    rw [List.getElem?_eq_getElem (by omega)] at this
    exact ⟨_, Option.some.inj this⟩
  · intro I hI y hy
    rw [← e3 I hI y hy]

/-- **C119 fails.** The curve is not the part's momental ellipse.  Even for a part whose principal axes are
those of the frame (so that the angle is zero and `C118_ellipse_shape_partial` holds for the
matplotlib figure), with different moments about x and z: the curve is longer along the axis with the
larger moment, and moment times squared radius differs already between its first two points. -/
theorem C119_ellipse_wrong (eig : Mat3 → Vec3 × Mat3) (argsort : Vec3 → Fin 3 → Fin 3)
    (cmap : List String) (s : Drawable) (o : GeometryOptions) (traces : List Trace)
    (h : plotBicycleGeometryPlotly eig argsort cmap s o = .ok traces) (ho : o.inertiaEllipse = true)
    (parts : List String) (hparts : drawnParts s.par = .ok parts) (i : ℕ) (part : String) (hi : parts[i]? = some part)
    (Ix Iy Iz : ℝ) (hx : 0 < Ix) (hxz : Ix < Iz)
    (hI : partInertiaTensor s.par part = .ok !![Ix, 0, 0; 0, Iy, 0; 0, 0, Iz])
    (y : Fin 3) (hy : ellipseYRow (principalAxes argsort (eig !![Ix, 0, 0; 0, Iy, 0; 0, 0, Iz]).1
      (eig !![Ix, 0, 0; 0, Iy, 0; 0, 0, Iz]).2).2 = some y)
    (hmom : (principalAxes argsort (eig !![Ix, 0, 0; 0, Iy, 0; 0, 0, Iz]).1
      (eig !![Ix, 0, 0; 0, Iy, 0; 0, 0, Iz]).2).1 (y.succAbove 0) = Ix ∧
      (principalAxes argsort (eig !![Ix, 0, 0; 0, Iy, 0; 0, 0, Iz]).1
      (eig !![Ix, 0, 0; 0, Iy, 0; 0, 0, Iz]).2).1 (y.succAbove 1) = Iz)
    (haxis : (principalAxes argsort (eig !![Ix, 0, 0; 0, Iy, 0; 0, 0, Iz]).1
      (eig !![Ix, 0, 0; 0, Iy, 0; 0, 0, Iz]).2).2 (y.succAbove 0) = ![1, 0, 0]) :
    ∃ pts color q0 q1, traces[i]? = some (.lines pts ("Inertia of " ++ part) color) ∧
      pts[0]? = some q0 ∧ pts[1]? = some q1 ∧
      let value := fun q : ℝ × ℝ => Ix * (q.1 - (drawnCenter s.par part).1) ^ 2 + Iz * (q.2 - (drawnCenter s.par part).2) ^ 2
      value q0 < value q1 := by
  obtain ⟨pts, color, h1, _, h2, _, width, height, angle, _, h3, h4⟩ :=
    C119_ellipse_centers eig argsort cmap s o traces h ho parts hparts i part hi
  have h5 := h4 _ hI y hy
  unfold ellipseSize partAxes at h5
  simp only [hmom.1, hmom.2, haxis, Prod.mk.injEq] at h5
  obtain ⟨hw, hh, ha⟩ := h5
  have hz : 0 < Iz := hx.trans hxz
  have s1 : √Ix ≠ 0 := (Real.sqrt_pos.2 hx).ne'
  have s2 : √Iz ≠ 0 := (Real.sqrt_pos.2 hz).ne'
  have hw' : width ^ 2 = Iz ^ 2 / 4 := by
    rw [hw]
    field_simp
    ring
  have hh' : height ^ 2 = Ix * Iz / 4 := by
    have e1 : √Ix ^ 2 = Ix := Real.sq_sqrt hx.le
    have e2 : √Iz ^ 2 = Iz := Real.sq_sqrt hz.le
    rw [hh]
    rw [mul_pow, mul_pow, div_pow, div_pow, e1, e2]
    field_simp
    ring
  have ha' : angle = 0 := by rw [ha]; simp
  subst ha'
  refine ⟨pts, color, _, _, h1, h3 0 (by norm_num), h3 1 (by norm_num), ?_⟩
  have hsin : 0 < sin (2 * π * ((1 : ℕ) : ℝ) / 99) := by
    apply sin_pos_of_pos_of_lt_pi
    · have := Real.pi_pos; positivity
    · have := Real.pi_pos; push_cast; linarith
  have hsc := sin_sq_add_cos_sq (2 * π * ((1 : ℕ) : ℝ) / 99)
  generalize sin (2 * π * ((1 : ℕ) : ℝ) / 99) = sn at *
  generalize cos (2 * π * ((1 : ℕ) : ℝ) / 99) = cs at *
  intro value
  have v0 : value ((drawnCenter s.par part).1 + height * cos (2 * π * ((0 : ℕ) : ℝ) / 99) * cos 0 -
      width * sin (2 * π * ((0 : ℕ) : ℝ) / 99) * sin 0, (drawnCenter s.par part).2 +
      height * cos (2 * π * ((0 : ℕ) : ℝ) / 99) * sin 0 + width * sin (2 * π * ((0 : ℕ) : ℝ) / 99) * cos 0) =
      Ix * height ^ 2 := by
    simp [value]
  have v1 : value ((drawnCenter s.par part).1 + height * cs * cos 0 - width * sn * sin 0,
      (drawnCenter s.par part).2 + height * cs * sin 0 + width * sn * cos 0) =
      Ix * height ^ 2 * cs ^ 2 + Iz * width ^ 2 * sn ^ 2 := by
    simp only [value, cos_zero, sin_zero]
    ring
  rw [v0, v1, hw', hh']
  have hcs : cs ^ 2 = 1 - sn ^ 2 := by linarith
  rw [hcs]
  have : 0 < sn ^ 2 * (Iz ^ 3 - Ix ^ 2 * Iz) := by
    have : 0 < Iz ^ 3 - Ix ^ 2 * Iz := by
      have e : Iz ^ 3 - Ix ^ 2 * Iz = Iz * ((Iz - Ix) * (Iz + Ix)) := by ring
      have := sub_pos.2 hxz
      rw [e]; positivity
    positivity
  nlinarith

/-! ## When the figure can be made -/

theorem partColors_mem {cmap : ℝ → String} {parts : List String} {part c : String}
    (h : (partColors cmap parts).get part = .ok c) : part ∈ parts := by
  have h := get_ok h
  unfold partColors at h
  rw [foldl_set_find? (fun e : String × ℕ => e.1) (fun e => cmap ((e.2 : ℝ) / (parts.length : ℝ)))] at h
  cases hf : parts.zipIdx.reverse.find? fun e => e.1 = part with
  | none =>
    rw [hf] at h
    cases h
  | some e =>
    have hm := List.mem_of_find?_eq_some hf
    have he := List.find?_some hf
    simp only [decide_eq_true_eq] at he
    obtain ⟨x, k⟩ := e
    rw [List.mem_reverse, List.mk_mem_zipIdx_iff_getElem?] at hm
    rw [← he]
    exact List.mem_of_getElem? hm

/-- **C119.** Whenever `plot_bicycle_geometry` succeeds, so does the plotly method with the same options,
unless the colours run out or the mass centre of a fork without a mass is to be drawn. -/
theorem C119_succeeds (eig : Mat3 → Vec3 × Mat3) (argsort : Vec3 → Fin 3 → Fin 3)
    (cmap : ℝ → String) (pastel : List String) (s : Drawable) (o : GeometryOptions) (fig : GeometryFigure)
    (h : plotBicycleGeometry eig argsort cmap s o = .ok fig) (parts : List String)
    (hparts : drawnParts s.par = .ok parts) (hl : parts.length ≤ pastel.length)
    (hH : o.centerOfMass = true → "H" ∈ parts) :
    ∃ traces, plotBicycleGeometryPlotly eig argsort pastel s o = .ok traces := by
  unfold plotBicycleGeometry at h
  obtain ⟨parts', h1, h⟩ := ebind_ok h
  rw [hparts] at h1
  cases h1
  obtain ⟨ells, h2, h⟩ := ebind_ok h
  obtain ⟨ellipses, h3, h⟩ := ebind_ok h
  obtain ⟨u, hu, h⟩ := ebind_ok h
  obtain ⟨segs, h4, h⟩ := ebind_ok h
  obtain ⟨pens, h5, h⟩ := ebind_ok h
  obtain ⟨coms, h6, h⟩ := ebind_ok h
  obtain ⟨stick, h7, h⟩ := ebind_ok h
  clear h
  obtain ⟨colors, hc1, hc2, _⟩ := plotlyColors_ok hl
  have hcol : ∀ {part c}, (partColors cmap parts).get part = .ok c → ∃ c', colors.get part = .ok c' := by
    intro part c hc
    obtain ⟨v, hv⟩ := (Dict.has_iff_exists _ _).1 ((hc2 part).2 (partColors_mem hc))
    exact ⟨v, get_some hv⟩
  unfold plotBicycleGeometryPlotly
  rw [hparts]
  refine ebind_total ⟨parts, rfl⟩ ?_
  intro a ha
  cases ha
  refine ebind_total ⟨colors, hc1⟩ ?_
  intro a ha
  rw [hc1] at ha
  cases ha
  refine ebind_total ⟨ells, h2⟩ ?_
  intro a ha
  rw [h2] at ha
  cases ha
  refine ebind_total (mapM_total ?_) ?_
  · intro e he
    refine emap_total ?_
    obtain ⟨i, hi, rfl⟩ := List.getElem_of_mem he
    obtain ⟨_, hg⟩ := forall₂_getElem? (mapM_ok_forall₂ h3)
    obtain ⟨b, _, hb⟩ := hg i ells[i] (List.getElem?_eq_getElem hi)
    obtain ⟨c, hc, _⟩ := emap_ok hb
    exact hcol hc
  intro ell' _
  refine ebind_total ⟨u, hu⟩ ?_
  intro _ _
  refine ebind_total ⟨segs, h4⟩ ?_
  intro a ha
  refine ebind_total ?_ ?_
  · by_cases ho : o.centerOfMass = true
    · rw [if_pos ho] at h6 ⊢
      unfold comMarks at h6
      obtain ⟨w, hw, h6⟩ := ebind_ok h6
      obtain ⟨rF, hrF, h6⟩ := ebind_ok h6
      obtain ⟨cF, hcF, h6⟩ := ebind_ok h6
      obtain ⟨rR, hrR, h6⟩ := ebind_ok h6
      obtain ⟨cR, hcR, h6⟩ := ebind_ok h6
      obtain ⟨rest, hrest, h6⟩ := ebind_ok h6
      unfold plotlyComs
      refine ebind_total ⟨w, hw⟩ fun _ _ => ebind_total ⟨rF, hrF⟩ fun _ _ => ebind_total (hcol hcF) fun _ _ =>
        ebind_total ⟨rR, hrR⟩ fun _ _ => ebind_total (hcol hcR) fun _ _ => ebind_total (mapM_total ?_) fun _ _ =>
        emap_total ?_
      · intro part hp
        obtain ⟨i, hi, rfl⟩ := List.getElem_of_mem hp
        obtain ⟨_, hg⟩ := forall₂_getElem? (mapM_ok_forall₂ hrest)
        obtain ⟨b, _, hb⟩ := hg i _ (List.getElem?_eq_getElem hi)
        obtain ⟨x, hx, hb⟩ := ebind_ok hb
        obtain ⟨z, hz, hb⟩ := ebind_ok hb
        obtain ⟨c, hc, hb⟩ := emap_ok hb
        exact ebind_total ⟨x, hx⟩ fun _ _ => ebind_total ⟨z, hz⟩ fun _ _ => emap_total (hcol hc)
      · rw [if_pos (hH ho)]; exact ⟨_, rfl⟩
    · rw [if_neg ho]; exact ⟨_, rfl⟩
  intro coms' _
  refine ebind_total ?_ ?_
  · unfold plotlyStick
    cases hh : s.human with
    | none => exact ⟨_, rfl⟩
    | some j =>
      obtain ⟨foot, knee, hip, _, _, _, _, a1, a2, a3, _⟩ := (stickFigure_spec h7).2 j hh
      dsimp only
      refine ebind_total ?_ fun _ _ => emap_total ?_
      · exact ebind_total ⟨foot, a1⟩ fun _ _ => emap_total ⟨knee, a2⟩
      · exact ebind_total ⟨knee, a2⟩ fun _ _ => emap_total ⟨hip, a3⟩
  · intro _ _; exact ⟨_, rfl⟩

/-! ## Examples -/

/-- non-vacuity of the theorems about a figure: the example of C118 can be drawn -/
example : ∃ traces, plotBicycleGeometryPlotly (inclinedEig 1) (fun v => Tuple.sort v) ["rgb(102, 197, 204)"]
    inclinedFrame ⟨false, false, true⟩ = .ok traces := by
  obtain ⟨fig, hfig⟩ := inclined_plot 1 (Or.inl rfl)
  exact C119_succeeds _ _ _ _ _ _ fig hfig ["B"] inclined_parts le_rfl (fun h => by cases h)

/-- non-vacuity of `C119_fork_without_mass` -/
example (traces : List Trace) : plotBicycleGeometryPlotly (inclinedEig 1) (fun v => Tuple.sort v) ["rgb(102, 197, 204)"]
    inclinedFrame ⟨false, true, false⟩ ≠ .ok traces :=
  C119_fork_without_mass _ _ _ _ _ rfl ["B"] inclined_parts (by decide) traces

/-- non-vacuity of `C119_too_many_parts` -/
example : plotBicycleGeometryPlotly (inclinedEig 1) (fun v => Tuple.sort v) [] inclinedFrame ⟨false, false, false⟩ =
    .error .indexError :=
  C119_too_many_parts _ _ _ _ _ ["B"] inclined_parts (by decide)

/-- A frame whose principal axes are the bicycle's. -/
noncomputable def Spec.straightFrame : Drawable :=
  { inclinedFrame with
    par := [("rR", 0.3), ("rF", 0.35), ("w", 1), ("c", 0.1), ("lam", 0.3), ("mB", 10), ("xB", 0.4), ("zB", -0.6),
      ("IBxx", 1), ("IBxz", 0), ("IByy", 3), ("IBzz", 2)] }

/-- what `eig` returns for it -/
def Spec.straightEig (_ : Mat3) : Vec3 × Mat3 := (![1, 2, 3], !![1, 0, 0; 0, 0, 1; 0, 1, 0])

theorem straight_parts : drawnParts straightFrame.par = .ok ["B"] := by rfl

theorem straight_tensor : partInertiaTensor straightFrame.par "B" = .ok !![1, 0, 0; 0, 3, 0; 0, 0, 2] := by
  have h : Dict.require straightFrame.par ["IBxx", "I" ++ "B" ++ "xx", "I" ++ "B" ++ "xz", "I" ++ "B" ++ "yy", "I" ++ "B" ++ "zz"] =
      .ok () := by
    rw [Dict.require_ok_iff]
    intro k hk
    simp only [List.mem_cons, List.not_mem_nil, or_false] at hk
    rcases hk with rfl | rfl | rfl | rfl | rfl <;> rfl
  unfold partInertiaTensor
  dsimp only
  rw [if_neg (by decide), h]
  rfl

theorem straight_row (I : Mat3) : ellipseYRow (principalAxes (fun _ => id) (straightEig I).1 (straightEig I).2).2 = some 2 := by
  unfold ellipseYRow
  dsimp only
  rw [if_pos]
  simp [principalAxes, straightEig]
  norm_num

/-- non-vacuity of `C119_ellipse_wrong` -/
example : ∃ traces, plotBicycleGeometryPlotly straightEig (fun _ => id) ["rgb(102, 197, 204)"]
    straightFrame ⟨false, false, true⟩ = .ok traces ∧ ∃ (pts : List (ℝ × ℝ)) (color : String) (q0 q1 : ℝ × ℝ),
      traces[0]? = some (.lines pts ("Inertia of " ++ "B") color) ∧ pts[0]? = some q0 ∧ pts[1]? = some q1 ∧
      1 * (q0.1 - (drawnCenter straightFrame.par "B").1) ^ 2 + 2 * (q0.2 - (drawnCenter straightFrame.par "B").2) ^ 2 <
      1 * (q1.1 - (drawnCenter straightFrame.par "B").1) ^ 2 + 2 * (q1.2 - (drawnCenter straightFrame.par "B").2) ^ 2 := by
  obtain ⟨fig, hfig⟩ : ∃ fig, plotBicycleGeometry straightEig (fun _ => id) (fun _ => "b") straightFrame
      ⟨false, false, true⟩ = .ok fig := by
    refine C118_succeeds _ _ _ _ _ ["B"] straight_parts ?_ ?_ ?_ ?_ ?_ ?_
    · intro k hk
      simp only [List.mem_cons, List.not_mem_nil, or_false] at hk
      rcases hk with rfl | rfl | rfl | rfl | rfl <;> rfl
    · intro part hp _ _ _
      simp only [List.mem_cons, List.not_mem_nil, or_false] at hp
      subst hp
      exact ⟨rfl, rfl⟩
    · intro h; cases h
    · intro _ part hp
      simp only [List.mem_cons, List.not_mem_nil, or_false] at hp
      subst hp
      exact ⟨_, 2, straight_tensor, straight_row _⟩
    · intro e he; exact absurd he.1 (by simp)
    · intro h; cases h
  obtain ⟨traces, htr⟩ := C119_succeeds _ _ _ ["rgb(102, 197, 204)"] _ _ fig hfig ["B"] straight_parts le_rfl
    (fun h => by cases h)
  refine ⟨traces, htr, C119_ellipse_wrong _ _ _ _ _ traces htr rfl ["B"] straight_parts 0 "B" rfl 1 3 2 one_pos
    one_lt_two straight_tensor 2 (straight_row _) ⟨rfl, rfl⟩ ?_⟩
  ext i
  fin_cases i <;> simp [principalAxes, straightEig, Fin.succAbove]

end BP
