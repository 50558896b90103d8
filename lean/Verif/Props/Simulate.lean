import Verif.Props.Eigen
import Mathlib.Analysis.ODE.ExistUnique
import Mathlib.Analysis.SpecialFunctions.ExpDeriv
import Mathlib.Analysis.SpecialFunctions.Complex.LogDeriv
import Mathlib.Analysis.Calculus.Deriv.Pi

/-!
# Properties of models.py: simulation (C97, C94), rejected arguments (C68), the caller's
initial conditions (C91)
-/

set_option linter.unusedSimpArgs false

namespace BP

open Matrix Spec Set

section
variable {m k : ℕ} {form : Form m k} {ok : Dict SVal → Dict OVal → ℕ → Prop}
  {f : Dict SVal → SS m k} {rel : String → Prop}

theorem sweptKeys_nil {stored : Dict SVal} {ov : Dict OVal} (hno : ∀ k, ¬ Swept stored ov k) :
    sweptKeys stored ov = [] := by
  by_contra h0
  obtain ⟨k, hk⟩ := List.exists_mem_of_ne_nil _ h0
  exact hno k (mem_sweptKeys.1 hk)

theorem sweptKeys_ne_nil {stored : Dict SVal} {ov : Dict OVal} (h : ∃ k, Swept stored ov k) :
    sweptKeys stored ov ≠ [] := by
  intro h0
  obtain ⟨k, hk⟩ := h
  have := mem_sweptKeys.2 hk
  rw [h0] at this; simp at this

/-! ## C68 -/

/-- **C68.** Whatever the model, the times, the initial conditions and the input function are,
`simulate` and `simulate_modes` raise `ValueError` as soon as a keyword argument that names a
parameter is an array (incompatible ones included), unless another one is unusable, which
raises `TypeError`; no existing dictionary is changed. -/
theorem C68_simulation_rejects_arrays (form : Form m k) (eig : Eig m) (solve : Solver m)
    (times x0 : List ℝ) (u : Option (ℝ → (Fin m → ℝ) → Fin k → ℝ))
    (h : Heap) (s : ℕ) (stored : Dict SVal) (ov : Dict OVal)
    (hs : h[s]? = some (stored.map fun e => (e.1, .num e.2))) (hn : ov.keys.Nodup)
    (hu : ∀ k, stored.has k = true → (k, OVal.unsized) ∉ ov)
    (hsw : ∃ k, Swept stored ov k) :
    ∃ d, simulate form solve times x0 u s ov h = (.error .valueError, h ++ [d]) ∧
      simulateModes form eig solve times s ov h = (.error .valueError, h ++ [d]) := by
  obtain ⟨d, e, _⟩ := parse_run h s stored ov hs hn
  obtain ⟨hiff, herr, _⟩ := C65_overrides_raise h s stored ov hs hn
  refine ⟨d, ?_⟩
  cases hp : (parseOverrides s ov h).1 with
  | error x =>
    have hx : x = .valueError := by
      rcases herr x hp with ⟨_, k, h1, h2⟩ | ⟨h1, _⟩
      · exact absurd h2 (hu k h1)
      · exact h1
    have hpe : parseOverrides s ov h = (.error .valueError, h ++ [d]) := by
      rw [← hx, ← hp]
      rw [e]
    unfold simulate simulateModes
    exact ⟨HM.bind_error hpe, HM.bind_error hpe⟩
  | ok p =>
    obtain ⟨n, hc⟩ := hiff.1 ⟨p, hp⟩
    obtain ⟨d', e', _⟩ := parse_good h s stored ov n hs hn hc
    have hd : d' = d := by
      have := congrArg Prod.snd (e'.symm.trans e)
      simpa using this
    subst hd
    unfold simulate simulateModes
    rw [HM.bind_ok e', HM.bind_ok e']
    rw [if_pos (sweptKeys_ne_nil hsw), if_pos (sweptKeys_ne_nil hsw)]
    exact ⟨rfl, rfl⟩

/-- The gains in the order of the documented 2 by 4 gain matrix. -/
def Spec.gainOrder : Fin 8 → String :=
  !["kTphi_phi", "kTphi_del", "kTphi_phid", "kTphi_deld",
    "kTdel_phi", "kTdel_del", "kTdel_phid", "kTdel_deld"]

theorem gainOrder_eq (j : Fin 8) : gainNames[j.1]? = some (gainOrder j) := by
  fin_cases j <;> rfl

/-- **C68.** `plot_gains` raises `ValueError` exactly when no parameter other than the gains is
swept (one or more are accepted); otherwise the abscissae of the eight curves are the first
such array and the ordinates of each gain are its values, the same number everywhere if it is
not swept; no dictionary is changed. -/
theorem C68_plot_gains (h : Heap) (s : ℕ) (stored : Dict SVal) (ov : Dict OVal) (n : ℕ)
    (hs : h[s]? = some (stored.map fun e => (e.1, .num e.2))) (hn : ov.keys.Nodup)
    (hc : Compatible stored ov n) (hG : ∀ k ∈ gainNames, stored.has k = true) :
    ((∀ k, Swept stored ov k → k ∈ gainNames) →
      ∃ ext, plotGains s ov h = (.error .valueError, h ++ ext)) ∧
    ((∃ k, Swept stored ov k ∧ k ∉ gainNames) → ∃ key xs pre post curves ext,
      ov = pre ++ (key, .arr xs) :: post ∧ Swept stored ov key ∧ key ∉ gainNames ∧
      (∀ k ys, (k, OVal.arr ys) ∈ pre → stored.has k = true → k ∈ gainNames) ∧
      plotGains s ov h = (.ok curves, h ++ ext) ∧ curves.length = 8 ∧
      ∀ j : Fin 8, curves[j]? = some (xs, (List.range n).map fun i =>
        Dict.getD (nums (evaluatedAt stored ov i)) (gainOrder j) 0)) := by
  obtain ⟨d, e, hf⟩ := parse_good h s stored ov n hs hn hc
  have hg : (h ++ [d]).getD h.length [] = d := by simp [List.getD_eq_getElem?_getD]
  constructor
  · intro hall
    refine ⟨[d], ?_⟩
    unfold plotGains
    rw [HM.bind_ok e, HM.bind_ok (HM.load_run _ _)]
    have : (sweptKeys stored ov).filter (· ∉ gainNames) = [] := by
      rw [List.filter_eq_nil_iff]
      intro k hk
      simpa using hall k (mem_sweptKeys.1 hk)
    simp only [this]
    rfl
  · intro hex
    obtain ⟨key, rest, hfil⟩ : ∃ key rest,
        (sweptKeys stored ov).filter (· ∉ gainNames) = key :: rest := by
      obtain ⟨k, h1, h2⟩ := hex
      refine List.exists_cons_of_ne_nil fun h0 => ?_
      rw [List.filter_eq_nil_iff] at h0
      exact h0 k (mem_sweptKeys.2 h1) (by simpa using h2)
    have hfirst : ∀ (ov : Dict OVal), (sweptKeys stored ov).filter (· ∉ gainNames) = key :: rest →
        ∃ xs pre post, ov = pre ++ (key, .arr xs) :: post ∧ stored.has key = true ∧ key ∉ gainNames ∧
          ∀ k ys, (k, OVal.arr ys) ∈ pre → stored.has k = true → k ∈ gainNames := by
      intro ov
      induction ov with
      | nil => intro h0; simp [sweptKeys, knownArrays] at h0
      | cons a ov ih =>
        obtain ⟨k, v⟩ := a
        intro h0
        have step : (∀ ys, v = .arr ys → stored.has k = true → k ∈ gainNames) →
            ∃ xs pre post, (k, v) :: ov = pre ++ (key, .arr xs) :: post ∧ stored.has key = true ∧
              key ∉ gainNames ∧ ∀ k ys, (k, OVal.arr ys) ∈ pre → stored.has k = true → k ∈ gainNames := by
          intro hv
          have h' : (sweptKeys stored ov).filter (· ∉ gainNames) = key :: rest := by
            unfold sweptKeys knownArrays at h0 ⊢
            rw [List.filterMap_cons] at h0
            cases v with
            | num x => simpa using h0
            | unsized => simpa using h0
            | arr ys =>
              by_cases hk : stored.has k = true
              · have := hv ys rfl hk
                simpa [hk, this] using h0
              · simpa [hk] using h0
          obtain ⟨xs, pre, post, e, h1, h2, h3⟩ := ih h'
          refine ⟨xs, (k, v) :: pre, post, by rw [e]; rfl, h1, h2, fun k' ys hm hk => ?_⟩
          rcases List.mem_cons.1 hm with h4 | h4
          · simp only [Prod.mk.injEq] at h4
            obtain ⟨rfl, h4⟩ := h4
            exact hv ys h4.symm hk
          · exact h3 k' ys h4 hk
        cases v with
        | num x => exact step fun ys h0 => by cases h0
        | unsized => exact step fun ys h0 => by cases h0
        | arr ys =>
          by_cases hk : stored.has k = true ∧ k ∉ gainNames
          · unfold sweptKeys knownArrays at h0
            rw [List.filterMap_cons] at h0
            simp only [hk.1, if_true, List.map_cons, List.filter_cons, hk.2, not_false_eq_true,
              decide_true, List.cons.injEq] at h0
            obtain ⟨rfl, _⟩ := h0
            exact ⟨ys, [], ov, rfl, hk.1, hk.2, by simp⟩
          · exact step fun _ _ h1 => by
              by_contra h2
              exact hk ⟨h1, h2⟩
    obtain ⟨xs, pre, post, eo, hk, hkg, hpre⟩ := hfirst ov hfil
    have hmem : (key, OVal.arr xs) ∈ ov := by rw [eo]; simp
    have hxs : xs.length = n := hc.2 key xs hk hmem
    have hd : d.get key = .ok (.arr xs) := by
      obtain ⟨x, hx⟩ := (Dict.has_iff_exists _ _).1 hk
      simp [Dict.get, hf key, hx, find?_eq_of_mem_nodup hn hmem, overridden]
    have hcurve : ∀ g ∈ gainNames, gainCurve d (sweptKeys stored ov) xs g = .ok (xs, (List.range n).map
        fun i => Dict.getD (nums (evaluatedAt stored ov i)) g 0) := by
      intro g hgm
      by_cases hsg : g ∈ sweptKeys stored ov
      · obtain ⟨ys, h1, h2, h3⟩ := (parsed_entry hn hc hf g).1 hsg
        have : ys.map SVal.val = (List.range n).map
            fun i => Dict.getD (nums (evaluatedAt stored ov i)) g 0 := by
          apply List.ext_getElem
          · simp [h2]
          · intro i hi1 hi2
            simp only [List.length_map] at hi1
            simp only [List.getElem_map, List.getElem_range]
            rw [getD_nums_of_find? (h3 i hi1)]
        simp [gainCurve, Dict.get, h1, Except.bind, hsg, this]
      · rcases (parsed_entry hn hc hf g).2 hsg with ⟨h1, h2⟩ | ⟨x, h1, h2⟩
        · have := hG g hgm
          rw [← has_evaluatedAt stored ov 0 g] at this
          unfold Dict.has at this; rw [h2 0] at this; cases this
        · have : (xs.map fun _ => x.val) = (List.range n).map
              fun i => Dict.getD (nums (evaluatedAt stored ov i)) g 0 := by
            apply List.ext_getElem
            · simp [hxs]
            · intro i hi1 hi2
              simp only [List.getElem_map, List.getElem_range]
              rw [getD_nums_of_find? (h2 i)]
          simp [gainCurve, Dict.get, h1, Except.bind, this]
    have hm : gainNames.mapM (gainCurve d (sweptKeys stored ov) xs) = .ok (gainNames.map fun g =>
        (xs, (List.range n).map fun i => Dict.getD (nums (evaluatedAt stored ov i)) g 0)) :=
      mapM_eq_map hcurve
    refine ⟨key, xs, pre, post, gainNames.map fun g => (xs, (List.range n).map fun i =>
      Dict.getD (nums (evaluatedAt stored ov i)) g 0), [d], eo, ⟨hk, xs, hmem⟩, hkg, hpre, ?_, ?_, ?_⟩
    · unfold plotGains
      rw [HM.bind_ok e, HM.bind_ok (HM.load_run _ _)]
      simp only [hg, hfil, hd]
      rw [HM.ofExcept_run, hm]
    · simp [gainNames]
    · intro j
      show (gainNames.map _)[j.1]? = _
      rw [List.getElem?_map, gainOrder_eq]
      rfl

/-! ## C97 -/

/-- `x` solves `x' = rhs(t, x)` between `a` and `b`. -/
def Spec.SolutionOn (rhs : ℝ → (Fin m → ℝ) → Fin m → ℝ) (a b : ℝ) (x : ℝ → Fin m → ℝ) : Prop :=
  ∀ t ∈ Icc a b, HasDerivWithinAt x (rhs t (x t)) (Icc a b) t

/-- An ideal `solve_ivp`: what it returns are the values of a solution at the requested times. -/
def Spec.ExactSolver (solve : Solver m) : Prop :=
  ∀ meth rhs a b x0 times ys, solve meth rhs a b x0 times = .ok ys →
    ∃ x, x a = x0 ∧ SolutionOn rhs a b x ∧ ys = times.map x

theorem ofExcept_ok_bind {α β : Type} (a : α) (g : α → HM β) (h : Heap) :
    HM.bind (HM.ofExcept (.ok a)) g h = g a h := rfl

theorem ofExcept_error_bind {α β : Type} (x : PyErr) (g : α → HM β) (h : Heap) :
    HM.bind (HM.ofExcept (.error x)) g h = (.error x, h) := rfl

theorem simulate_pre (hm : IsModel form ok f rel) (solve : Solver m) (x0 : List ℝ)
    (u : Option (ℝ → (Fin m → ℝ) → Fin k → ℝ))
    (h : Heap) (s : ℕ) (stored : Dict SVal) (ov : Dict OVal) (n : ℕ)
    (hs : Holds h s stored) (hn : ov.keys.Nodup)
    (hc : Compatible stored ov n) (hok : ok stored ov n) (hno : ∀ k, ¬ Swept stored ov k) :
    ∃ ext, ∀ (t : List ℝ), simulate form solve t x0 u s ov h =
      HM.bind (HM.ofExcept (timeSpan t)) (fun span => HM.bind (HM.ofExcept (stateOf m x0)) fun x =>
        HM.bind (HM.ofExcept (solve .lsoda (evalRhs (f (evaluatedAt stored ov 0)).1
          (f (evaluatedAt stored ov 0)).2 u) span.1 span.2 x t)) fun ys =>
          HM.bind (HM.ofExcept (inputsAt u ys t)) fun us => HM.pure (ys, us)) (h ++ ext) := by
  classical
  obtain ⟨d, e, _⟩ := parse_good h s stored ov n hs hn hc
  obtain ⟨ext, e2⟩ := hm.run (h ++ [d]) s stored ov n (hs.append [d]) hn hc hok
  rw [if_neg (by rintro ⟨k, _, hk⟩; exact hno k hk)] at e2
  refine ⟨[d] ++ ext, fun t => ?_⟩
  unfold simulate
  rw [HM.bind_ok e]
  rw [if_neg (by simpa using sweptKeys_nil hno), HM.bind_ok e2,
    HM.bind_ok (a := f (evaluatedAt stored ov 0)) (h' := h ++ [d] ++ ext)
      (by rw [HM.ofExcept_run]; rfl), List.append_assoc]
  rfl

theorem simulate_run (hm : IsModel form ok f rel) (solve : Solver m) (t0 : ℝ) (ts x0 : List ℝ)
    (u : Option (ℝ → (Fin m → ℝ) → Fin k → ℝ))
    (h : Heap) (s : ℕ) (stored : Dict SVal) (ov : Dict OVal) (n : ℕ)
    (hs : Holds h s stored) (hn : ov.keys.Nodup)
    (hc : Compatible stored ov n) (hok : ok stored ov n) (hno : ∀ k, ¬ Swept stored ov k)
    (hx : x0.length = m) :
    ∃ ext, simulate form solve (t0 :: ts) x0 u s ov h =
      ((solve .lsoda (evalRhs (f (evaluatedAt stored ov 0)).1 (f (evaluatedAt stored ov 0)).2 u) t0
        (ts.getLastD t0) (fun i => x0.getD i 0) (t0 :: ts)).bind fun ys =>
          (inputsAt u ys (t0 :: ts)).map fun us => (ys, us), h ++ ext) := by
  obtain ⟨ext, e⟩ := simulate_pre hm solve x0 u h s stored ov n hs hn hc hok hno
  refine ⟨ext, (e _).trans ?_⟩
  have hst : stateOf m x0 = .ok fun i => x0.getD i 0 := by rw [stateOf, if_pos hx]
  have hts : timeSpan (t0 :: ts) = .ok (t0, ts.getLastD t0) := rfl
  rw [hst, hts]
  simp only [ofExcept_ok_bind]
  cases solve .lsoda (evalRhs (f (evaluatedAt stored ov 0)).1 (f (evaluatedAt stored ov 0)).2 u)
      t0 (ts.getLastD t0) (fun i => x0.getD i 0) (t0 :: ts) with
  | error x => rfl
  | ok ys =>
    rw [ofExcept_ok_bind]
    cases hin : inputsAt u ys (t0 :: ts) with
    | error x => simp [Except.bind, hin, Except.map, ofExcept_error_bind]
    | ok us => simp [Except.bind, hin, Except.map, ofExcept_ok_bind, HM.pure_run]

/-- **C97.** `simulate` without an input function: with an exact solver the returned states
are the values, at the given times, of the solution of `x' = A x` that starts at the initial
conditions, and the returned inputs are zero. -/
theorem C97_simulate_free (hm : IsModel form ok f rel) (solve : Solver m) (hex : ExactSolver solve)
    (t0 : ℝ) (ts x0 : List ℝ)
    (h : Heap) (s : ℕ) (stored : Dict SVal) (ov : Dict OVal) (n : ℕ)
    (hs : h[s]? = some (stored.map fun e => (e.1, .num e.2))) (hn : ov.keys.Nodup)
    (hc : Compatible stored ov n) (hok : ok stored ov n) (hno : ∀ k, ¬ Swept stored ov k)
    (hx : x0.length = m) (ys : List (Fin m → ℝ)) (us : List (Fin k → ℝ))
    (hres : (simulate form solve (t0 :: ts) x0 none s ov h).1 = .ok (ys, us)) :
    ∃ x, (∀ i : Fin m, x t0 i = x0.getD i 0) ∧
      SolutionOn (fun _ x => (f (evaluatedAt stored ov 0)).1 *ᵥ x) t0
        (ts.getLastD t0) x ∧
      ys = (t0 :: ts).map x ∧ us = (t0 :: ts).map fun _ => 0 := by
  obtain ⟨ext, e⟩ := simulate_run hm solve t0 ts x0 none h s stored ov n hs hn hc hok hno hx
  rw [e] at hres
  cases hsol : solve .lsoda (evalRhs (f (evaluatedAt stored ov 0)).1 (f (evaluatedAt stored ov 0)).2 none)
      t0 (ts.getLastD t0) (fun i => x0.getD i 0) (t0 :: ts) with
  | error x => rw [hsol] at hres; cases hres
  | ok ys' =>
    rw [hsol] at hres
    simp only [Except.bind, inputsAt, Except.map, Except.ok.injEq, Prod.mk.injEq] at hres
    obtain ⟨rfl, rfl⟩ := hres
    obtain ⟨x, h1, h2, h3⟩ := hex _ _ _ _ _ _ _ hsol
    exact ⟨x, fun i => congrFun h1 i, h2, h3, rfl⟩

/-- **C97.** `simulate` with an input function `u(t, x)`: the states follow
`x' = A x + B u(t, x)` from the initial conditions and the returned inputs are `u(t, x(t))` at
the given times. -/
theorem C97_simulate_inputs (hm : IsModel form ok f rel) (solve : Solver m) (hex : ExactSolver solve)
    (t0 : ℝ) (ts x0 : List ℝ) (u : ℝ → (Fin m → ℝ) → Fin k → ℝ)
    (h : Heap) (s : ℕ) (stored : Dict SVal) (ov : Dict OVal) (n : ℕ)
    (hs : h[s]? = some (stored.map fun e => (e.1, .num e.2))) (hn : ov.keys.Nodup)
    (hc : Compatible stored ov n) (hok : ok stored ov n) (hno : ∀ k, ¬ Swept stored ov k)
    (hx : x0.length = m) (ys : List (Fin m → ℝ)) (us : List (Fin k → ℝ))
    (hres : (simulate form solve (t0 :: ts) x0 (some u) s ov h).1 = .ok (ys, us)) :
    ∃ x, (∀ i : Fin m, x t0 i = x0.getD i 0) ∧
      SolutionOn (fun t x => (f (evaluatedAt stored ov 0)).1 *ᵥ x +
        (f (evaluatedAt stored ov 0)).2 *ᵥ u t x) t0 (ts.getLastD t0) x ∧
      ys = (t0 :: ts).map x ∧ us = (t0 :: ts).map fun t => u t (x t) := by
  obtain ⟨ext, e⟩ := simulate_run hm solve t0 ts x0 (some u) h s stored ov n hs hn hc hok hno hx
  rw [e] at hres
  cases hsol : solve .lsoda (evalRhs (f (evaluatedAt stored ov 0)).1 (f (evaluatedAt stored ov 0)).2
      (some u)) t0 (ts.getLastD t0) (fun i => x0.getD i 0) (t0 :: ts) with
  | error x => rw [hsol] at hres; cases hres
  | ok ys' =>
    rw [hsol] at hres
    obtain ⟨x, h1, h2, h3⟩ := hex _ _ _ _ _ _ _ hsol
    have hz : (t0 :: ts).zipIdx.mapM (inputAt u ys') = .ok ((t0 :: ts).map fun t => u t (x t)) := by
      have h4 : ((t0 :: ts).map fun t => u t (x t)) = (t0 :: ts).zipIdx.map fun ti => u ti.1 (x ti.1) := by
        generalize t0 :: ts = l
        apply List.ext_getElem
        · simp
        · intro i hi1 hi2; simp
      rw [h4]
      refine mapM_eq_map fun ti hti => ?_
      obtain ⟨t, i⟩ := ti
      have h5 := List.mem_zipIdx_iff_getElem?.1 hti
      simp only at h5
      unfold inputAt
      rw [h3, List.getElem?_map, h5]
      rfl
    simp only [Except.bind, inputsAt, hz, Except.map, Except.ok.injEq, Prod.mk.injEq] at hres
    obtain ⟨rfl, rfl⟩ := hres
    exact ⟨x, fun i => congrFun h1 i, h2, h3, rfl⟩

/-- **C97.** What `simulate` refuses: no times (`IndexError`), the wrong number of initial
conditions (`ValueError`); and if the solver stops early an input function makes it raise
`IndexError`, while without one it returns fewer states than times. -/
theorem C97_simulate_raises (hm : IsModel form ok f rel) (solve : Solver m)
    (times x0 : List ℝ) (u : Option (ℝ → (Fin m → ℝ) → Fin k → ℝ))
    (h : Heap) (s : ℕ) (stored : Dict SVal) (ov : Dict OVal) (n : ℕ)
    (hs : h[s]? = some (stored.map fun e => (e.1, .num e.2))) (hn : ov.keys.Nodup)
    (hc : Compatible stored ov n) (hok : ok stored ov n) (hno : ∀ k, ¬ Swept stored ov k) :
    (times = [] → (simulate form solve times x0 u s ov h).1 = .error .indexError) ∧
    (times ≠ [] → x0.length ≠ m → (simulate form solve times x0 u s ov h).1 = .error .valueError) ∧
    (∀ t0 ts ys, times = t0 :: ts → x0.length = m → ys.length < times.length →
      solve .lsoda (evalRhs (f (evaluatedAt stored ov 0)).1 (f (evaluatedAt stored ov 0)).2 u) t0
        (ts.getLastD t0) (fun i => x0.getD i 0) (t0 :: ts) = .ok ys →
      (simulate form solve times x0 u s ov h).1 = match u with
        | none => .ok (ys, times.map fun _ => 0)
        | some _ => .error .indexError) := by
  obtain ⟨ext, hpre⟩ := simulate_pre hm solve x0 u h s stored ov n hs hn hc hok hno
  refine ⟨?_, ?_, ?_⟩
  · rintro rfl
    rw [hpre]; rfl
  · intro ht hx
    obtain ⟨t0, ts, rfl⟩ := List.exists_cons_of_ne_nil ht
    rw [hpre]
    have : stateOf m x0 = .error .valueError := by unfold stateOf; rw [if_neg hx]
    rw [this]
    rfl
  · intro t0 ts ys ht hx hl hsol
    subst ht
    obtain ⟨ext', e'⟩ := simulate_run hm solve t0 ts x0 u h s stored ov n hs hn hc hok hno hx
    rw [e', hsol]
    cases u with
    | none => rfl
    | some u =>
      have hz : (t0 :: ts).zipIdx.mapM (inputAt u ys) = .error .indexError := by
        refine mapM_error ?_ ⟨((t0 :: ts)[ys.length]'hl, ys.length), ?_, ?_⟩
        · intro ti _
          unfold inputAt
          split
          · exact .inl ⟨_, rfl⟩
          · exact .inr rfl
        · rw [List.mem_zipIdx_iff_getElem?]; simp
        · simp [inputAt]
      simp only [Except.bind, inputsAt, hz, Except.map]

/-! ## C94 -/

/-- The real motion of a mode: `Re(e^{λ (t - t0)} v)`. -/
noncomputable def Spec.modeMotion (lam : ℂ) (v : Fin m → ℂ) (t0 t : ℝ) : Fin m → ℝ :=
  fun i => (Complex.exp (lam * ((t - t0 : ℝ) : ℂ)) * v i).re

theorem modeMotion_start (lam : ℂ) (v : Fin m → ℂ) (t0 : ℝ) :
    modeMotion lam v t0 t0 = fun i => (v i).re := by
  funext i; simp [modeMotion]

theorem modeMotion_deriv (A : Matrix (Fin m) (Fin m) ℝ) (lam : ℂ) (v : Fin m → ℂ)
    (hv : (A.map Complex.ofReal) *ᵥ v = lam • v) (t0 t : ℝ) :
    HasDerivAt (modeMotion lam v t0) (A *ᵥ modeMotion lam v t0 t) t := by
  rw [hasDerivAt_pi]
  intro i
  have h1 : HasDerivAt (fun t : ℝ => lam * ((t - t0 : ℝ) : ℂ)) lam t := by
    have := ((hasDerivAt_id t).sub_const t0).ofReal_comp.const_mul lam
    simpa using this
  have h2 : HasDerivAt (fun t : ℝ => Complex.exp (lam * ((t - t0 : ℝ) : ℂ)) * v i)
      (Complex.exp (lam * ((t - t0 : ℝ) : ℂ)) * lam * v i) t := (h1.cexp).mul_const _
  have h3 := Complex.reCLM.hasFDerivAt.comp_hasDerivAt t h2
  have h4 : (A *ᵥ modeMotion lam v t0 t) i = (Complex.exp (lam * ((t - t0 : ℝ) : ℂ)) * lam * v i).re := by
    have h5 := congrFun hv i
    simp only [Matrix.mulVec, dotProduct, Matrix.map_apply, Pi.smul_apply, smul_eq_mul] at h5
    rw [mul_assoc, ← h5, Finset.mul_sum, Complex.re_sum]
    simp only [Matrix.mulVec, dotProduct, modeMotion]
    refine Finset.sum_congr rfl fun j _ => ?_
    rw [mul_left_comm, Complex.re_ofReal_mul]
  rw [h4]
  exact h3

/-- A linear system has only one solution with given initial values. -/
theorem linear_unique (A : Matrix (Fin m) (Fin m) ℝ) {a b : ℝ} {x y : ℝ → Fin m → ℝ}
    (hx : SolutionOn (fun _ x => A *ᵥ x) a b x) (hy : SolutionOn (fun _ x => A *ᵥ x) a b y)
    (h0 : x a = y a) : EqOn x y (Icc a b) := by
  have hl : LipschitzWith _ (fun x : Fin m → ℝ => A *ᵥ x) :=
    (LinearMap.toContinuousLinearMap (Matrix.mulVecLin A)).lipschitz
  have hr : ∀ {z : ℝ → Fin m → ℝ}, SolutionOn (fun _ x => A *ᵥ x) a b z →
      ∀ t ∈ Ico a b, HasDerivWithinAt z (A *ᵥ z t) (Ici t) t := by
    intro z hz t ht
    exact (hz t (Ico_subset_Icc_self ht)).mono_of_mem_nhdsWithin
      (Icc_mem_nhdsGE_of_mem ht)
  exact ODE_solution_unique (v := fun _ x => A *ᵥ x) (fun _ => hl)
    (fun t ht => (hx t ht).continuousWithinAt) (hr hx)
    (fun t ht => (hy t ht).continuousWithinAt) (hr hy) h0

/-- **C97.** The free motion is determined: whichever solution of `x' = A x` starts at the
initial conditions, `simulate` returns its values. -/
theorem C97_simulate_free_unique (hm : IsModel form ok f rel) (solve : Solver m)
    (hex : ExactSolver solve) (t0 : ℝ) (ts x0 : List ℝ)
    (htimes : ∀ t ∈ ts, t0 ≤ t ∧ t ≤ ts.getLastD t0)
    (h : Heap) (s : ℕ) (stored : Dict SVal) (ov : Dict OVal) (n : ℕ)
    (hs : h[s]? = some (stored.map fun e => (e.1, .num e.2))) (hn : ov.keys.Nodup)
    (hc : Compatible stored ov n) (hok : ok stored ov n) (hno : ∀ k, ¬ Swept stored ov k)
    (hx : x0.length = m) (ys : List (Fin m → ℝ)) (us : List (Fin k → ℝ))
    (hres : (simulate form solve (t0 :: ts) x0 none s ov h).1 = .ok (ys, us))
    (y : ℝ → Fin m → ℝ) (hy0 : ∀ i : Fin m, y t0 i = x0.getD i 0)
    (hy : SolutionOn (fun _ x => (f (evaluatedAt stored ov 0)).1 *ᵥ x) t0 (ts.getLastD t0) y) :
    ys = (t0 :: ts).map y := by
  obtain ⟨x, h1, h2, h3, _⟩ := C97_simulate_free hm solve hex t0 ts x0 h s stored ov n hs hn hc hok hno
    hx ys us hres
  rw [h3]
  have hle : t0 ≤ ts.getLastD t0 := by
    cases ts with
    | nil => exact le_refl _
    | cons a l => exact (htimes a (by simp)).1.trans (htimes a (by simp)).2
  refine List.map_congr_left fun t ht => linear_unique _ h2 hy
    (funext fun i => (h1 i).trans (hy0 i).symm) ?_
  rcases List.mem_cons.1 ht with rfl | ht
  · exact ⟨le_refl _, hle⟩
  · exact htimes t ht

theorem simulateModes_run (hm : IsModel form ok f rel) (eig : Eig m) (solve : Solver m)
    (times : List ℝ)
    (h : Heap) (s : ℕ) (stored : Dict SVal) (ov : Dict OVal) (n : ℕ)
    (hs : Holds h s stored) (hn : ov.keys.Nodup)
    (hc : Compatible stored ov n) (hok : ok stored ov n) (hno : ∀ k, ¬ Swept stored ov k) :
    ∃ ext, simulateModes form eig solve times s ov h =
      ((List.finRange m).mapM (simulateMode solve (f (evaluatedAt stored ov 0)).1
        (eig (f (evaluatedAt stored ov 0)).1) times), h ++ ext) := by
  classical
  obtain ⟨d, e, _⟩ := parse_good h s stored ov n hs hn hc
  obtain ⟨ext, e2⟩ := hm.run (h ++ [d]) s stored ov n (hs.append [d]) hn hc hok
  obtain ⟨ext', e3⟩ := calcEigen_run hm eig false (h ++ [d] ++ ext) s stored ov n
    ((hs.append [d]).append ext) hn hc hok
  rw [if_neg (by rintro ⟨k, _, hk⟩; exact hno k hk)] at e2 e3
  refine ⟨[d] ++ ext ++ ext', ?_⟩
  unfold simulateModes
  rw [HM.bind_ok e]
  rw [if_neg (by simpa using sweptKeys_nil hno), HM.bind_ok e2, HM.bind_ok e3]
  simp only [← List.append_assoc]
  exact HM.ofExcept_run (((List.finRange m).mapM (simulateMode solve (f (evaluatedAt stored ov 0)).1
        (eig (f (evaluatedAt stored ov 0)).1) times))) _

/-- **C94.** `simulate_modes`, with a right `eig` and an exact solver: row `i` of the result is
`Re(e^{λᵢ (t - t₀)} vᵢ)` at the given times, with the `i`-th eigenvalue and eigenvector of
`calc_eigen`. -/
theorem C94_modes_follow_exponentials (hm : IsModel form ok f rel) (eig : Eig m)
    (solve : Solver m) (hex : ExactSolver solve) (t0 : ℝ) (ts : List ℝ)
    (htimes : ∀ t ∈ ts, t0 ≤ t ∧ t ≤ ts.getLastD t0)
    (h : Heap) (s : ℕ) (stored : Dict SVal) (ov : Dict OVal) (n : ℕ)
    (hs : h[s]? = some (stored.map fun e => (e.1, .num e.2))) (hn : ov.keys.Nodup)
    (hc : Compatible stored ov n) (hok : ok stored ov n) (hno : ∀ k, ¬ Swept stored ov k)
    (heig : EigenpairsOf (f (evaluatedAt stored ov 0)).1 (eig (f (evaluatedAt stored ov 0)).1))
    (res : List (List (Fin m → ℝ)))
    (hres : (simulateModes form eig solve (t0 :: ts) s ov h).1 = .ok res) :
    (∃ h', (calcEigen form eig false s ov h) = (.ok (.one (eig (f (evaluatedAt stored ov 0)).1)), h')) ∧
    res.length = m ∧
    ∀ i : Fin m, res[i.1]? = some ((t0 :: ts).map
      (modeMotion ((eig (f (evaluatedAt stored ov 0)).1).1 i)
        (fun j => (eig (f (evaluatedAt stored ov 0)).1).2 j i) t0)) := by
  classical
  obtain ⟨ext, e⟩ := simulateModes_run hm eig solve (t0 :: ts) h s stored ov n hs hn hc hok hno
  obtain ⟨ext', e'⟩ := calcEigen_run hm eig false h s stored ov n hs hn hc hok
  rw [if_neg (by rintro ⟨k, _, hk⟩; exact hno k hk)] at e'
  refine ⟨⟨_, e'⟩, ?_⟩
  rw [e] at hres
  set A := (f (evaluatedAt stored ov 0)).1 with hA
  set p := eig A with hp
  have hall := mapM_ok_forall₂ hres
  have hlen := hall.length_eq
  refine ⟨by simpa using hlen.symm, fun i => ?_⟩
  have hi : i.1 < res.length := by rw [← hlen]; simp
  have hrow : simulateMode solve A p (t0 :: ts) i = .ok res[i.1] := by
    have := List.forall₂_iff_get.1 hall |>.2 i.1 (by simp) hi
    simpa using this
  rw [List.getElem?_eq_getElem hi]
  congr 1
  unfold simulateMode at hrow
  have hts : timeSpan (t0 :: ts) = .ok (t0, ts.getLastD t0) := rfl
  rw [hts] at hrow
  simp only [Except.bind] at hrow
  cases hsol : solve .rk45 (fun _ x => A *ᵥ x) t0 (ts.getLastD t0) (fun j => (p.2 j i).re)
      (t0 :: ts) with
  | error x => rw [hsol] at hrow; simp at hrow
  | ok ys =>
    rw [hsol] at hrow
    obtain ⟨x, h1, h2, h3⟩ := hex _ _ _ _ _ _ _ hsol
    have hl : ys.length = (t0 :: ts).length := by rw [h3, List.length_map]
    simp only [assignRows, hl, if_true, Except.ok.injEq] at hrow
    rw [← hrow, h3]
    have hle : t0 ≤ ts.getLastD t0 := by
      cases ts with
      | nil => exact le_refl _
      | cons a l => exact (htimes a (by simp)).1.trans (htimes a (by simp)).2
    have heq : EqOn x (modeMotion (p.1 i) (fun j => p.2 j i) t0) (Icc t0 (ts.getLastD t0)) :=
      linear_unique A h2
        (fun t _ => (modeMotion_deriv A _ _ (heig.1 i) t0 t).hasDerivWithinAt)
        (by rw [h1, modeMotion_start])
    refine List.map_congr_left fun t ht => heq ?_
    rcases List.mem_cons.1 ht with rfl | ht
    · exact ⟨le_refl _, hle⟩
    · exact htimes t ht

/-! ## C91 -/

/-- `simulate` changes no existing dictionary, whether it returns or raises. -/
theorem C91_simulate_keeps_dictionaries (hm : IsModel form ok f rel) (eig : Eig m)
    (solve : Solver m) (times x0 : List ℝ) (u : Option (ℝ → (Fin m → ℝ) → Fin k → ℝ))
    (h : Heap) (s : ℕ) (stored : Dict SVal) (ov : Dict OVal) (n : ℕ)
    (hs : h[s]? = some (stored.map fun e => (e.1, .num e.2))) (hn : ov.keys.Nodup)
    (hc : Compatible stored ov n) (hok : ok stored ov n) :
    (∃ ext, (simulate form solve times x0 u s ov h).2 = h ++ ext) ∧
    (∃ ext, (simulateModes form eig solve times s ov h).2 = h ++ ext) := by
  by_cases hno : ∃ k, Swept stored ov k
  · obtain ⟨d, e1, e2⟩ := C68_simulation_rejects_arrays form eig solve times x0 u h s stored ov hs hn
      (fun k hk hm => hc.1 k hk hm) hno
    exact ⟨⟨_, by rw [e1]⟩, ⟨_, by rw [e2]⟩⟩
  · push Not at hno
    obtain ⟨ext, e⟩ := simulate_pre hm solve x0 u h s stored ov n hs hn hc hok hno
    obtain ⟨ext', e'⟩ := simulateModes_run hm eig solve times h s stored ov n hs hn hc hok hno
    refine ⟨⟨ext, ?_⟩, ⟨ext', by rw [e']⟩⟩
    rw [e]
    cases timeSpan times with
    | error x => rfl
    | ok span =>
      rw [ofExcept_ok_bind]
      cases stateOf m x0 with
      | error x => rfl
      | ok x =>
        rw [ofExcept_ok_bind]
        cases solve .lsoda (evalRhs (f (evaluatedAt stored ov 0)).1
          (f (evaluatedAt stored ov 0)).2 u) span.1 span.2 x times with
        | error x => rfl
        | ok ys =>
          rw [ofExcept_ok_bind]
          cases inputsAt u ys times <;> rfl

/-- **C91.** `MooreRiderLean2012Model.simulate` writes into the caller's initial conditions:
afterwards entry 9 is `-v/rr` and the others are as before; the simulation starts from these.
This also happens if the call then raises, for instance because another parameter is an
array. -/
theorem C91_rider_lean_overwrites (form : Form m k)
    (solve : Solver m) (times x0 : List ℝ) (u : Option (ℝ → (Fin m → ℝ) → Fin k → ℝ))
    (h : Heap) (s : ℕ) (stored : Dict SVal) (ov : Dict OVal) (n : ℕ)
    (hs : h[s]? = some (stored.map fun e => (e.1, .num e.2))) (hn : ov.keys.Nodup)
    (hc : Compatible stored ov n) (hv : stored.has "v" = true) (hr : stored.has "rr" = true)
    (hv' : ¬ Swept stored ov "v") (hr' : ¬ Swept stored ov "rr") (hx : 9 < x0.length) :
    ∃ (x1 : List ℝ) (ext : Heap), x1.length = x0.length ∧
      x1[9]? = some (-Dict.getD (nums (evaluatedAt stored ov 0)) "v" 0 /
        Dict.getD (nums (evaluatedAt stored ov 0)) "rr" 0) ∧
      (∀ i, i ≠ 9 → x1[i]? = x0[i]?) ∧
      riderLeanSimulate form solve times x0 u s ov h =
        (simulate form solve times x1 u s ov (h ++ ext), x1) := by
  obtain ⟨d, e, hf⟩ := parse_good h s stored ov n hs hn hc
  have hg : (h ++ [d]).getD h.length [] = d := by simp [List.getD_eq_getElem?_getD]
  have key : ∀ k, stored.has k = true → ¬ Swept stored ov k → ∃ x : SVal, d.get k = .ok (.num x) ∧
      Dict.getD (nums (evaluatedAt stored ov 0)) k 0 = x.val := by
    intro k hk hk'
    rcases (parsed_entry hn hc hf k).2 (fun h0 => hk' (mem_sweptKeys.1 h0)) with ⟨_, h2⟩ | ⟨x, h1, h2⟩
    · rw [← has_evaluatedAt stored ov 0 k] at hk
      unfold Dict.has at hk; rw [h2 0] at hk; cases hk
    · exact ⟨x, by simp [Dict.get, h1], getD_nums_of_find? (h2 0)⟩
  obtain ⟨v, hv1, hv2⟩ := key "v" hv hv'
  obtain ⟨r, hr1, hr2⟩ := key "rr" hr hr'
  refine ⟨x0.set 9 (-v.val / r.val), [d], by simp, ?_, ?_, ?_⟩
  · rw [hv2, hr2, List.getElem?_set_self hx]
  · intro i hi
    rw [List.getElem?_set_ne (Ne.symm hi)]
  · unfold riderLeanSimulate
    rw [e]
    simp only [hg, hv1, hr1, hx, if_true]

/-- **C91.** So the caller's array is not always left alone: at rest in all states, a bicycle
with a nonzero speed comes back with another rear wheel rate. -/
theorem C91_initial_conditions_changed :
    ¬ ∀ (solve : Solver 12) (form : Form 12 3) (times x0 : List ℝ) (h : Heap) (s : ℕ)
      (stored : Dict SVal) (ov : Dict OVal),
      h[s]? = some (stored.map fun e => (e.1, .num e.2)) →
      (∀ k ∈ leanKeys, stored.has k = true) → x0.length = 12 →
      (riderLeanSimulate form solve times x0 none s ov h).2 = x0 := by
  intro hall
  have hvr : (exampleSet .riderLean).has "v" = true ∧ (exampleSet .riderLean).has "rr" = true := by
    constructor <;> (rw [example_has]; decide)
  have := hall (fun _ _ _ _ _ _ => .ok []) (fun _ _ h => (.error .valueError, h)) [0] (List.replicate 12 0)
    [(exampleSet .riderLean).map fun e => (e.1, .num e.2)] 0 (exampleSet .riderLean)
    [("v", .num ⟨.pyFloat, 5⟩), ("rr", .num ⟨.pyFloat, 1⟩)] rfl
    (fun k hk => by
      rw [example_has]
      exact (by decide : ∀ k ∈ leanKeys, decide (k ∈ SetKind.riderLean.parStrings.keys) = true) k hk)
    (by simp)
  have hns : ∀ k, ¬ Swept (exampleSet .riderLean)
      [("v", .num ⟨.pyFloat, 5⟩), ("rr", .num ⟨.pyFloat, 1⟩)] k := by
    rintro k ⟨_, ys, hm⟩
    simp at hm
  obtain ⟨x1, ext, _, h9, _, e⟩ := C91_rider_lean_overwrites
    (fun _ _ h => (.error .valueError, h)) (fun _ _ _ _ _ _ => .ok []) [0] (List.replicate 12 0) none
    [(exampleSet .riderLean).map fun e => (e.1, .num e.2)] 0 (exampleSet .riderLean)
    [("v", .num ⟨.pyFloat, 5⟩), ("rr", .num ⟨.pyFloat, 1⟩)] 0 rfl (by decide)
    ⟨fun k _ hm => by simp at hm, fun k ys _ hm => by simp at hm⟩ hvr.1 hvr.2 (hns _) (hns _) (by simp)
  rw [e] at this
  simp only at this
  rw [this] at h9
  have hv5 : Dict.getD (nums (evaluatedAt (exampleSet .riderLean)
      [("v", .num ⟨.pyFloat, 5⟩), ("rr", .num ⟨.pyFloat, 1⟩)] 0)) "v" 0 = 5 := by
    obtain ⟨x, hx⟩ := (Dict.has_iff_exists _ _).1 hvr.1
    refine getD_nums_of_find? (x := ⟨.pyFloat, 5⟩) ?_
    rw [find?_evaluatedAt, hx]; rfl
  have hr1 : Dict.getD (nums (evaluatedAt (exampleSet .riderLean)
      [("v", .num ⟨.pyFloat, 5⟩), ("rr", .num ⟨.pyFloat, 1⟩)] 0)) "rr" 0 = 1 := by
    obtain ⟨x, hx⟩ := (Dict.has_iff_exists _ _).1 hvr.2
    refine getD_nums_of_find? (x := ⟨.pyFloat, 1⟩) ?_
    rw [find?_evaluatedAt, hx]; rfl
  rw [hv5, hr1] at h9
  norm_num at h9

/-! ## The hypotheses can be met -/

open Classical in
/-- A solver that solves whatever has a solution. -/
noncomputable def Spec.idealSolver (m : ℕ) : Solver m := fun _ rhs a b x0 times =>
  if h : ∃ x : ℝ → Fin m → ℝ, x a = x0 ∧ SolutionOn rhs a b x then .ok (times.map h.choose)
  else .error .valueError

theorem example_exact_solver (m : ℕ) : ExactSolver (idealSolver m) := by
  intro meth rhs a b x0 times ys h
  unfold idealSolver at h
  split at h
  · rename_i hx
    simp only [Except.ok.injEq] at h
    exact ⟨_, hx.choose_spec.1, hx.choose_spec.2, h.symm⟩
  · cases h

/-- Without arrays `simulate_modes` returns with this solver, whatever the model is, so that
C94 speaks of every model. -/
theorem example_modes_returned (hm : IsModel form ok f rel) (eig : Eig m) (t0 : ℝ) (ts : List ℝ)
    (h : Heap) (s : ℕ) (stored : Dict SVal) (ov : Dict OVal) (n : ℕ)
    (hs : h[s]? = some (stored.map fun e => (e.1, .num e.2))) (hn : ov.keys.Nodup)
    (hc : Compatible stored ov n) (hok : ok stored ov n) (hno : ∀ k, ¬ Swept stored ov k)
    (heig : EigenpairsOf (f (evaluatedAt stored ov 0)).1 (eig (f (evaluatedAt stored ov 0)).1)) :
    ∃ res, (simulateModes form eig (idealSolver m) (t0 :: ts) s ov h).1 = .ok res := by
  obtain ⟨ext, e⟩ := simulateModes_run hm eig (idealSolver m) (t0 :: ts) h s stored ov n hs hn hc hok hno
  rw [e]
  refine mapM_total fun i _ => ?_
  have hex : ∃ x : ℝ → Fin m → ℝ, x t0 = (fun j => ((eig (f (evaluatedAt stored ov 0)).1).2 j i).re) ∧
      SolutionOn (fun _ x => (f (evaluatedAt stored ov 0)).1 *ᵥ x) t0 (ts.getLastD t0) x :=
    ⟨_, modeMotion_start _ _ t0, fun t _ =>
      (modeMotion_deriv _ _ _ (heig.1 i) t0 t).hasDerivWithinAt⟩
  unfold simulateMode
  have hts : timeSpan (t0 :: ts) = .ok (t0, ts.getLastD t0) := rfl
  rw [hts]
  simp only [Except.bind, idealSolver]
  rw [dif_pos hex]
  simp [assignRows]

end
end BP
