import Verif.Model.MainPlots
import Verif.Props.Simulate

/-!
# Properties of the plots of simulations: C111 and C112
-/

set_option linter.unusedSimpArgs false

namespace BP

open Matrix Spec

section
variable {m k : ℕ}

/-! ## C111: plot_mode_simulations -/

/-- What is drawn of a quantity: angles and angular rates in degrees, anything else as it is. -/
noncomputable def Spec.drawn (unit : String) (x : ℝ) : ℝ :=
  if unit = "rad" ∨ unit = "rad/s" then x * 180 / Real.pi else x

/-- **C111.** There is one panel for each unit, in alphabetical order. -/
theorem C111_panels (units : List String) :
    (uniqueUnits units).Nodup ∧ (∀ u, u ∈ uniqueUnits units ↔ u ∈ units) ∧
    (uniqueUnits units).Pairwise (· ≤ ·) := by
  refine ⟨?_, fun u => ?_, ?_⟩
  · exact ((List.perm_insertionSort _ _).nodup_iff).2 (List.nodup_dedup _)
  · rw [uniqueUnits, (List.perm_insertionSort _ _).mem_iff, List.mem_dedup]
  · exact List.pairwise_insertionSort _ _

/-- **C111.** If the model lists a unit and a name for each of its states, the curves of a mode
are the states, one curve each, in the panel of their unit, with their own name, the angles in
degrees. -/
theorem C111_each_state_once (units names : List String) (hu : units.length = m)
    (hn : names.length = m) (res : List (Fin m → ℝ)) :
    (modePanel units names res).length = m ∧
    ∀ i : Fin m, ∃ curve unit name, (modePanel units names res)[i.1]? = some curve ∧
      units[i.1]? = some unit ∧ names[i.1]? = some name ∧
      (uniqueUnits units)[curve.panel]? = some unit ∧ curve.label = "$" ++ name ++ "$" ∧
      curve.ys = res.map fun x => drawn unit (x i) := by
  have hlen : (modePanel units names res).length = m := by
    simp [modePanel, hu, hn]
  refine ⟨hlen, fun i => ?_⟩
  have h1 : i.1 < units.length := by rw [hu]; exact i.2
  have h2 : i.1 < names.length := by rw [hn]; exact i.2
  have hz : (((List.finRange m).zip units).zip names)[i.1]? =
      some ((i, units[i.1]), names[i.1]) := by
    refine List.getElem?_zip_eq_some.2 ⟨List.getElem?_zip_eq_some.2 ⟨?_, ?_⟩, ?_⟩
    · simp
    · simp [h1]
    · simp [h2]
  refine ⟨_, units[i.1], names[i.1], by rw [modePanel, List.getElem?_map, hz]; rfl, by simp [h1],
    by simp [h2], ?_, rfl, ?_⟩
  · have hm : units[i.1] ∈ uniqueUnits units := ((C111_panels units).2.1 _).2 (List.getElem_mem h1)
    have hlt := List.idxOf_lt_length_iff.2 hm
    simp only
    rw [List.getElem?_eq_getElem hlt, List.getElem_idxOf]
  · refine List.map_congr_left fun x _ => ?_
    unfold drawn hasRad rad2deg
    by_cases h1 : units[i.1] = "rad"
    · simp [h1]
    · by_cases h2 : units[i.1] = "rad/s"
      · simp [h1, h2]
      · simp [h1, h2]

/-- Whether a mode is drawn: without `hide_zeros` always, else unless its eigenvalue is smaller
than the tolerance. -/
def Spec.Shown (tol : Option ℝ) (ev : ℂ) : Prop := ∀ t, tol = some t → t ≤ ‖ev‖

open Classical in
/-- **C111.** With a right `eig` and an exact solver, `plot_mode_simulations` draws one row of
panels for each mode shown, in the order of `calc_eigen`, titled with its eigenvalue, and the
curves of `Re(e^{λ (t - t₀)} v)`; it raises if fewer than two modes are shown. -/
theorem C111_rows {form : Form m k} {ok : Dict SVal → Dict OVal → ℕ → Prop}
    {f : Dict SVal → SS m k} {rel : String → Prop} (hm : IsModel form ok f rel) (units names : List String)
    (eig : Eig m) (solve : Solver m) (hex : ExactSolver solve) (tol : Option ℝ) (t0 : ℝ) (ts : List ℝ)
    (htimes : ∀ t ∈ ts, t0 ≤ t ∧ t ≤ ts.getLastD t0)
    (h : Heap) (s : ℕ) (stored : Dict SVal) (ov : Dict OVal) (n : ℕ)
    (hs : h[s]? = some (stored.map fun e => (e.1, .num e.2))) (hn : ov.keys.Nodup)
    (hc : Compatible stored ov n) (hok : ok stored ov n) (hno : ∀ k, ¬ Swept stored ov k)
    (e : EigPair m) (he : e = eig (f (evaluatedAt stored ov 0)).1)
    (heig : EigenpairsOf (f (evaluatedAt stored ov 0)).1 e)
    (hret : ∃ res, (simulateModes form eig solve (t0 :: ts) s ov h).1 = .ok res) :
    (plotModeSimulations units names form eig solve tol (t0 :: ts) s ov h).1 =
      let shown := (List.finRange m).filter fun j => decide (Shown tol (e.1 j))
      if shown.length = 0 then .error .valueError
      else if shown.length = 1 then .error .indexError
      else .ok (shown.map fun j => (e.1 j, modePanel units names
        ((t0 :: ts).map (modeMotion (e.1 j) (fun i => e.2 i j) t0)))) := by
  obtain ⟨res, hres⟩ := hret
  subst he
  obtain ⟨_, hlen, hrow⟩ := C94_modes_follow_exponentials hm eig solve hex t0 ts htimes h s stored ov n hs
    hn hc hok hno heig res hres
  set e := eig (f (evaluatedAt stored ov 0)).1 with hee
  obtain ⟨ext, e1⟩ := simulateModes_run hm eig solve (t0 :: ts) h s stored ov n hs hn hc hok hno
  obtain ⟨ext', e2⟩ := calcEigen_run hm eig false (h ++ ext) s stored ov n
    (Holds.append (h := h) (s := s) (stored := stored) hs ext) hn hc hok
  rw [if_neg (by rintro ⟨k, _, hk⟩; exact hno k hk)] at e2
  have hval : (List.finRange m).mapM (simulateMode solve (f (evaluatedAt stored ov 0)).1
      (eig (f (evaluatedAt stored ov 0)).1) (t0 :: ts)) = .ok res := by
    rw [e1] at hres; exact hres
  rw [hval] at e1
  have hrese : res = (List.finRange m).map fun j =>
      (t0 :: ts).map (modeMotion (e.1 j) (fun i => e.2 i j) t0) := by
    apply List.ext_getElem?
    intro i
    by_cases hi : i < m
    · rw [hrow ⟨i, hi⟩]; simp [hi]
    · rw [List.getElem?_eq_none (by omega), List.getElem?_eq_none (by simp; omega)]
  have hzip : res.zip (List.ofFn e.1) = (List.finRange m).map fun j =>
      ((t0 :: ts).map (modeMotion (e.1 j) (fun i => e.2 i j) t0), e.1 j) := by
    rw [hrese, List.ofFn_eq_map, List.zip_map']
  have hshown : ∀ ev, modeShown tol ev = decide (Shown tol ev) := by
    intro ev
    cases tol with
    | none => simp [modeShown, Shown]
    | some t => simp [modeShown, Shown, ← not_lt]
  have hfil : (res.zip (List.ofFn e.1)).filter (fun r => modeShown tol r.2) =
      ((List.finRange m).filter fun j => decide (Shown tol (e.1 j))).map fun j =>
        ((t0 :: ts).map (modeMotion (e.1 j) (fun i => e.2 i j) t0), e.1 j) := by
    rw [hzip, List.filter_map]
    congr 1
    apply List.filter_congr
    intro j _
    simp [hshown]
  unfold plotModeSimulations
  rw [HM.bind_ok e1, HM.bind_ok e2]
  simp only [eigMatrix, Bool.false_eq_true, if_false]
  have e3 : HM.ofExcept (Stack.one (eig (f (evaluatedAt stored ov 0)).1)).asOne
      (h ++ ext ++ ext') = (.ok e, h ++ ext ++ ext') := rfl
  rw [HM.bind_ok e3]
  simp only [hfil]
  generalize (List.finRange m).filter (fun j => decide (Shown tol (e.1 j))) = sh
  match sh with
  | [] => rfl
  | [_] => rfl
  | a :: b :: l =>
    simp only [List.map_cons, List.length_cons, Nat.add_eq_zero_iff, one_ne_zero, and_false, if_false,
      Nat.add_eq_right, HM.pure_run]
    simp [Function.comp_def]

/-- **C111.** The rider lean model lists eleven units for its twelve states: the last state, the
lean rate, is never drawn. -/
theorem C111_lean_rate_not_drawn (res : List (Fin 12 → ℝ)) :
    (modePanel leanUnits leanLatex res).length = 11 ∧
    ∀ curve ∈ modePanel leanUnits leanLatex res, curve.label ≠ "$u_9$" := by
  constructor
  · simp [modePanel, leanUnits, leanLatex]
  · intro curve hcu
    have hl : curve.label ∈ (modePanel leanUnits leanLatex res).map PanelCurve.label :=
      List.mem_map.2 ⟨curve, hcu, rfl⟩
    have he : (modePanel leanUnits leanLatex res).map PanelCurve.label =
        ["$q_1$", "$q_2$", "$q_3$", "$q_4$", "$q_6$", "$q_7$", "$q_8$", "$q_9$", "$u_4$", "$u_6$",
          "$u_7$"] := by
      simp [modePanel, leanUnits, leanLatex, List.finRange_succ, dollars]
    rw [he] at hl
    rintro h0
    rw [h0] at hl
    simp at hl

/-- The Whipple model lists four of each. -/
theorem example_whipple_lists : whippleUnits.length = 4 ∧ whippleLatex.length = 4 := ⟨rfl, rfl⟩

/-- C111 applies to every model of the package with the solver of `example_exact_solver`. -/
theorem example_modes_drawn {form : Form m k} {ok : Dict SVal → Dict OVal → ℕ → Prop}
    {f : Dict SVal → SS m k} {rel : String → Prop} (hm : IsModel form ok f rel) (units names : List String)
    (eig : Eig m) (heig : ∀ A, EigenpairsOf A (eig A)) (h2 : 2 ≤ m)
    (h : Heap) (s : ℕ) (stored : Dict SVal) (ov : Dict OVal) (n : ℕ)
    (hs : h[s]? = some (stored.map fun e => (e.1, .num e.2))) (hn : ov.keys.Nodup)
    (hc : Compatible stored ov n) (hok : ok stored ov n) (hno : ∀ k, ¬ Swept stored ov k) :
    ∃ rows, (plotModeSimulations units names form eig (idealSolver m) none [0, 1, 2] s ov h).1 =
      .ok rows ∧ rows.length = m := by
  classical
  have hr := C111_rows hm units names eig (idealSolver m) (example_exact_solver m) none 0 [1, 2]
    (by intro t ht; simp at ht; rcases ht with rfl | rfl <;> norm_num) h s stored ov n hs hn hc hok hno _ rfl
    (heig _) (example_modes_returned hm eig 0 [1, 2] h s stored ov n hs hn hc hok hno (heig _))
  have hf : ((List.finRange m).filter fun j =>
      decide (Shown none ((eig (f (evaluatedAt stored ov 0)).1).1 j))) = List.finRange m := by
    rw [List.filter_eq_self]; intro j _; simp [Shown]
  simp only [hf, List.length_finRange] at hr
  rw [if_neg (by omega), if_neg (by omega)] at hr
  exact ⟨_, hr, by simp⟩

/-! ## C112: plot_simulation -/

/-- The curves with a label. -/
def Spec.labelledCurves (curves : List PanelCurve) (label : String) : List PanelCurve :=
  curves.filter fun c => c.label == label

/-- **C112.** `Meijaard2007Model.plot_simulation` draws the six trajectories that `simulate`
returns: each input and each state exactly once, under its own name, the states in degrees. -/
theorem C112_whipple (form : Form 4 2) (solve : Solver 4) (times x0 : List ℝ)
    (f : Option (ℝ → (Fin 4 → ℝ) → Fin 2 → ℝ)) (s : ℕ) (ov : Dict OVal) (h : Heap) :
    (∀ res inputs h', simulate form solve times x0 f s ov h = (.ok (res, inputs), h') →
      ∃ curves, whipplePlotSimulation form solve times x0 f s ov h = (.ok curves, h') ∧
        curves.length = 6 ∧
        labelledCurves curves "$T_\\phi$" = [⟨0, "$T_\\phi$", inputs.map fun u => u 0⟩] ∧
        labelledCurves curves "$T_\\delta$" = [⟨0, "$T_\\delta$", inputs.map fun u => u 1⟩] ∧
        labelledCurves curves "$\\phi$" =
          [⟨1, "$\\phi$", res.map fun x => x 0 * 180 / Real.pi⟩] ∧
        labelledCurves curves "$\\delta$" =
          [⟨1, "$\\delta$", res.map fun x => x 1 * 180 / Real.pi⟩] ∧
        labelledCurves curves "$\\dot{\\phi}$" =
          [⟨2, "$\\dot{\\phi}$", res.map fun x => x 2 * 180 / Real.pi⟩] ∧
        labelledCurves curves "$\\dot{\\delta}$" =
          [⟨2, "$\\dot{\\delta}$", res.map fun x => x 3 * 180 / Real.pi⟩]) ∧
    ∀ err h', simulate form solve times x0 f s ov h = (.error err, h') →
      whipplePlotSimulation form solve times x0 f s ov h = (.error err, h') := by
  constructor
  · intro res inputs h' e
    refine ⟨whippleSimulationCurves res inputs, ?_, ?_⟩
    · unfold whipplePlotSimulation
      rw [HM.bind_ok e]; rfl
    · have hc : whippleSimulationCurves res inputs =
          [⟨0, "$T_\\phi$", inputs.map fun u => u 0⟩, ⟨0, "$T_\\delta$", inputs.map fun u => u 1⟩,
           ⟨1, "$\\phi$", res.map fun x => x 0 * 180 / Real.pi⟩,
           ⟨1, "$\\delta$", res.map fun x => x 1 * 180 / Real.pi⟩,
           ⟨2, "$\\dot{\\phi}$", res.map fun x => x 2 * 180 / Real.pi⟩,
           ⟨2, "$\\dot{\\delta}$", res.map fun x => x 3 * 180 / Real.pi⟩] := by
        simp [whippleSimulationCurves, whippleLatex, dollars, degColumn, rad2deg]
      rw [hc]
      simp [labelledCurves]
  · intro err h' e
    unfold whipplePlotSimulation
    rw [HM.bind_error e]

/-- The states of the rider lean model: name, unit, and the panel they are drawn in (the inputs
are in panel 0). -/
def Spec.leanStates : List (String × String × ℕ) :=
  [("$q_1$", "m", 1), ("$q_2$", "m", 1), ("$q_3$", "rad", 3), ("$q_4$", "rad", 3),
   ("$q_6$", "rad", 2), ("$q_7$", "rad", 3), ("$q_8$", "rad", 2), ("$q_9$", "rad", 3),
   ("$u_4$", "rad/s", 4), ("$u_6$", "rad/s", 4), ("$u_7$", "rad/s", 4), ("$u_9$", "rad/s", 4)]

/-- **C112.** `MooreRiderLean2012Model.plot_simulation` draws the trajectories of a simulation
from the given initial conditions with entry 9 replaced by `-v/rr`: each of the three inputs and
the twelve states exactly once, under its own name, angles and rates in degrees.  The caller's
initial conditions are changed. -/
theorem C112_rider_lean (form : Form 12 3)
    (solve : Solver 12) (times x0 : List ℝ) (u : Option (ℝ → (Fin 12 → ℝ) → Fin 3 → ℝ))
    (h : Heap) (s : ℕ) (stored : Dict SVal) (ov : Dict OVal) (n : ℕ)
    (hs : h[s]? = some (stored.map fun e => (e.1, .num e.2))) (hn : ov.keys.Nodup)
    (hc : Compatible stored ov n) (hv : stored.has "v" = true) (hr : stored.has "rr" = true)
    (hv' : ¬ Swept stored ov "v") (hr' : ¬ Swept stored ov "rr") (hx : 9 < x0.length) :
    ∃ (x1 : List ℝ) (ext : Heap), x1.length = x0.length ∧
      x1[9]? = some (-Dict.getD (nums (evaluatedAt stored ov 0)) "v" 0 /
        Dict.getD (nums (evaluatedAt stored ov 0)) "rr" 0) ∧
      (∀ i, i ≠ 9 → x1[i]? = x0[i]?) ∧
      (leanPlotSimulation form solve times x0 u s ov h).2 = x1 ∧
      (∀ err h', simulate form solve times x1 u s ov (h ++ ext) = (.error err, h') →
        (leanPlotSimulation form solve times x0 u s ov h).1 = (.error err, h')) ∧
      ∀ res inputs h', simulate form solve times x1 u s ov (h ++ ext) = (.ok (res, inputs), h') →
        ∃ curves, (leanPlotSimulation form solve times x0 u s ov h).1 = (.ok curves, h') ∧
          curves.length = 15 ∧
          (∀ (j : Fin 3) label, (["$T_4$", "$T_7$", "$T_9$"] : List String)[j.1]? = some label →
            labelledCurves curves label = [⟨0, label, inputs.map fun w => w j⟩]) ∧
          ∀ (i : Fin 12) label unit panel, leanStates[i.1]? = some (label, unit, panel) →
            labelledCurves curves label = [⟨panel, label, res.map fun x => drawn unit (x i)⟩] := by
  obtain ⟨d, e, hf⟩ := parse_good h s stored ov n hs hn hc
  have hg : (h ++ [d]).getD h.length [] = d := by simp [List.getD_eq_getElem?_getD]
  have key : ∀ k, stored.has k = true → ¬ Swept stored ov k → ∃ x : SVal, d.get k = .ok (.num x) ∧
      Dict.getD (nums (evaluatedAt stored ov 0)) k 0 = x.val := by
    intro k hk hk'
    rcases (parsed_entry hn hc hf k).2 (fun h0 => hk' (mem_sweptKeys.1 h0)) with ⟨_, h2⟩ | ⟨x, h1, h2⟩
    · rw [← has_evaluatedAt stored ov 0 k] at hk
      unfold Dict.has at hk; rw [h2 0] at hk; cases hk
    · exact ⟨x, by simp [Dict.get, h1], getD_nums_of_find? (h2 0)⟩
  obtain ⟨v, hv1, hv2⟩ := key "v" hv hv'
  obtain ⟨r, hr1, hr2⟩ := key "rr" hr hr'
  obtain ⟨x1, ext, hl1, h9, hoth, erun⟩ := C91_rider_lean_overwrites form solve times
    (x0.set 9 (-v.val / r.val)) u (h ++ [d]) s stored ov n
    (Holds.append (h := h) (s := s) (stored := stored) hs [d]) hn hc hv hr hv' hr' (by simpa using hx)
  have hplot : leanPlotSimulation form solve times x0 u s ov h =
      (((simulate form solve times x1 u s ov (h ++ [d] ++ ext)).1.map
        fun y => leanSimulationCurves y.1 y.2,
        (simulate form solve times x1 u s ov (h ++ [d] ++ ext)).2), x1) := by
    unfold leanPlotSimulation
    rw [e]
    simp only [hg, hv1, hr1, hx, if_true]
    rw [erun]
  refine ⟨x1, [d] ++ ext, by simpa using hl1, h9, ?_, by rw [hplot], ?_, ?_⟩
  · intro i hi
    rw [hoth i hi, List.getElem?_set_ne (Ne.symm hi)]
  · intro err h' he
    rw [← List.append_assoc] at he
    rw [hplot, he]; rfl
  · intro res inputs h' he
    rw [← List.append_assoc] at he
    refine ⟨leanSimulationCurves res inputs, by rw [hplot, he]; rfl, ?_⟩
    have hcur : leanSimulationCurves res inputs =
        [⟨0, "$T_4$", inputs.map fun w => w 0⟩, ⟨0, "$T_7$", inputs.map fun w => w 1⟩,
         ⟨0, "$T_9$", inputs.map fun w => w 2⟩,
         ⟨1, "$q_1$", res.map fun x => x 0⟩, ⟨1, "$q_2$", res.map fun x => x 1⟩,
         ⟨2, "$q_6$", degColumn res 4⟩, ⟨2, "$q_8$", degColumn res 6⟩,
         ⟨3, "$q_4$", degColumn res 3⟩, ⟨3, "$q_7$", degColumn res 5⟩, ⟨3, "$q_9$", degColumn res 7⟩,
         ⟨3, "$q_3$", degColumn res 2⟩,
         ⟨4, "$u_4$", degColumn res 8⟩, ⟨4, "$u_7$", degColumn res 10⟩, ⟨4, "$u_9$", degColumn res 11⟩,
         ⟨4, "$u_6$", degColumn res 9⟩] := by
      simp [leanSimulationCurves, labelled, leanLatex, dollars]
    rw [hcur]
    refine ⟨rfl, ?_, ?_⟩
    · intro j label hl
      fin_cases j <;> simp at hl <;> subst hl <;> simp [labelledCurves]
    · intro i label unit panel hl
      fin_cases i <;> simp [leanStates] at hl <;> obtain ⟨rfl, rfl, rfl⟩ := hl <;>
        simp [labelledCurves, degColumn, rad2deg, drawn]

end
end BP
