import Verif.Props.Decay
import Verif.Props.Simulate
import Verif.Props.Shipped
import Mathlib.Analysis.SpecialFunctions.Exponential

/-!
# C152: simulations at self-stable speeds
-/

set_option linter.unusedSimpArgs false

namespace BP

open Real Matrix Spec Set

variable {m k : ℕ}

/-- Every initial state has a free motion. -/
theorem motion_exists (A : Matrix (Fin m) (Fin m) ℝ) (x0 : Fin m → ℝ) :
    ∃ x : ℝ → Fin m → ℝ, x 0 = x0 ∧ ∀ t, HasDerivAt x (A *ᵥ x t) t := by
  let L : (Fin m → ℝ) →L[ℝ] (Fin m → ℝ) := LinearMap.toContinuousLinearMap (Matrix.mulVecLin A)
  refine ⟨fun t => NormedSpace.exp (t • L) x0, by simp, fun t => ?_⟩
  have h := (hasDerivAt_exp_smul_const' (𝕂 := ℝ) L t).clm_apply (hasDerivAt_const t x0)
  simpa [L] using h

/-- One bound for all motions. -/
theorem uniform_decay (A : Matrix (Fin m) (Fin m) ℝ) (h : ∀ l : ℂ, IsEigenvalue (toC A) l → l.re < 0) :
    ∃ K a : ℝ, 0 < a ∧ 0 ≤ K ∧ ∀ (x : ℝ → Fin m → ℝ) (t1 b t : ℝ), SolutionOn (fun _ x => A *ᵥ x) t1 b x → t1 ≤ t → t ≤ b →
      ∀ i, |x t i| ≤ K * Real.exp (-a * (t - t1)) * ∑ j, |x t1 j| := by
  obtain ⟨a, ha, hdec⟩ := decays (toC A) h
  choose y hy0 hy using fun j : Fin m => motion_exists A (Pi.single j 1)
  choose C hC using fun j : Fin m => hdec (fun t i => (y j t i : ℂ)) fun t _ =>
    motion_toC A (y j) t _ (hy j t).hasDerivWithinAt
  have hC' : ∀ j t, 0 ≤ t → ∀ i, |y j t i| ≤ C j * Real.exp (-a * t) := fun j t ht i => by
    have h1 := norm_le_pi_norm (fun i => (y j t i : ℂ)) i
    simp at h1
    exact h1.trans (hC j t ht)
  have hC0 : ∀ j, 0 ≤ C j := fun j => by
    have := (abs_nonneg _).trans (hC' j 0 le_rfl j)
    simpa using this
  refine ⟨∑ j, C j, a, ha, Finset.sum_nonneg fun j _ => hC0 j, fun x t1 b t hx h1 h2 i => ?_⟩
  let z : ℝ → Fin m → ℝ := fun s => ∑ j, x t1 j • y j (s - t1)
  have hz : SolutionOn (fun _ x => A *ᵥ x) t1 b z := fun s _ => by
    have hd : HasDerivAt z (∑ j, x t1 j • (A *ᵥ y j (s - t1))) s := by
      refine HasDerivAt.fun_sum fun j _ => ?_
      have := (hy j (s - t1)).scomp s ((hasDerivAt_id s).sub_const t1)
      rw [one_smul] at this
      exact this.const_smul (x t1 j)
    have e : ∑ j, x t1 j • (A *ᵥ y j (s - t1)) = A *ᵥ z s := by
      simp only [z, Matrix.mulVec_sum, Matrix.mulVec_smul]
    rw [e] at hd
    exact hd.hasDerivWithinAt
  have h0 : x t1 = z t1 := by
    funext i
    simp only [z, sub_self, hy0, Finset.sum_apply, Pi.smul_apply, smul_eq_mul, Pi.single_apply]
    simp
  have he : x t = z t := linear_unique A hx hz h0 ⟨h1, h2⟩
  rw [he]
  simp only [z, Finset.sum_apply, Pi.smul_apply, smul_eq_mul]
  have hE := (Real.exp_pos (-a * (t - t1))).le
  calc |∑ j, x t1 j * y j (t - t1) i| ≤ ∑ j, |x t1 j * y j (t - t1) i| := Finset.abs_sum_le_sum_abs _ _
    _ ≤ ∑ j, |x t1 j| * ((∑ j, C j) * Real.exp (-a * (t - t1))) := by
        refine Finset.sum_le_sum fun j _ => ?_
        rw [abs_mul]
        refine mul_le_mul_of_nonneg_left ((hC' j _ (by linarith) i).trans ?_) (abs_nonneg _)
        exact mul_le_mul_of_nonneg_right (Finset.single_le_sum (fun j _ => hC0 j) (Finset.mem_univ j)) hE
    _ = (∑ j, C j) * Real.exp (-a * (t - t1)) * ∑ j, |x t1 j| := by rw [← Finset.sum_mul]; ring

variable {form : Form m k} {ok : Dict SVal → Dict OVal → ℕ → Prop} {f : Dict SVal → SS m k} {rel : String → Prop}

/-- **C152.** If the state matrix for the chosen parameters has only eigenvalues with negative real parts, one exponential
bounds every simulation without inputs: whichever initial conditions and times are given, each returned state is at most
`K exp(-a (t - t0))` times the sum of the initial deviations. -/
theorem C152_simulations_die_out (hm : IsModel form ok f rel) (stored : Dict SVal) (ov : Dict OVal) (n : ℕ)
    (hn : ov.keys.Nodup) (hc : Compatible stored ov n) (hok : ok stored ov n) (hno : ∀ k, ¬ Swept stored ov k)
    (hstable : ∀ l : ℂ, IsEigenvalue (toC (f (evaluatedAt stored ov 0)).1) l → l.re < 0) :
    ∃ K a : ℝ, 0 < a ∧ ∀ (h : Heap) (s : ℕ) (solve : Solver m) (t0 : ℝ) (ts x0 : List ℝ) (ys : List (Fin m → ℝ))
      (us : List (Fin k → ℝ)), h[s]? = some (stored.map fun e => (e.1, .num e.2)) → ExactSolver solve →
      (∀ t ∈ ts, t0 ≤ t ∧ t ≤ ts.getLastD t0) → x0.length = m →
      (simulate form solve (t0 :: ts) x0 none s ov h).1 = .ok (ys, us) →
      ys.length = (t0 :: ts).length ∧
      ∀ p ∈ (t0 :: ts).zip ys, ∀ i, |p.2 i| ≤ K * Real.exp (-a * (p.1 - t0)) * (x0.map abs).sum := by
  obtain ⟨K, a, ha, hK, hb⟩ := uniform_decay _ hstable
  refine ⟨K, a, ha, fun h s solve t0 ts x0 ys us hs hex htimes hx hres => ?_⟩
  obtain ⟨x, h1, h2, rfl, -⟩ := C97_simulate_free hm solve hex t0 ts x0 h s stored ov n hs hn hc hok hno hx ys us hres
  refine ⟨by simp, fun p hp i => ?_⟩
  rw [List.zip_map_right, List.mem_map] at hp
  obtain ⟨⟨t, t'⟩, hp, rfl⟩ := hp
  have htt : t' = t ∧ t ∈ t0 :: ts := by
    rw [List.mem_iff_getElem] at hp
    obtain ⟨n, hn, he⟩ := hp
    rw [List.getElem_zip] at he
    simp only [Prod.mk.injEq] at he
    exact ⟨he.2.symm.trans he.1, he.1 ▸ List.getElem_mem _⟩
  obtain ⟨rfl, ht⟩ := htt
  have hle : t0 ≤ ts.getLastD t0 := by
    cases ts with
    | nil => exact le_refl _
    | cons a l => exact (htimes a (by simp)).1.trans (htimes a (by simp)).2
  have hr : t0 ≤ t' ∧ t' ≤ ts.getLastD t0 := by
    rcases List.mem_cons.1 ht with rfl | ht
    · exact ⟨le_rfl, hle⟩
    · exact htimes _ ht
  have hsum : ∑ j, |x t0 j| = (x0.map abs).sum := by
    subst hx
    simp only [h1]
    rw [← List.sum_ofFn]
    congr 1
    apply List.ext_getElem <;> simp
  rw [← hsum]
  exact hb x t0 _ t' h2 hr.1 hr.2 i

/-- **C152.** For a dictionary that is self-stable between `vw` and `vc` (C150): every simulation without inputs of the model,
at a speed of the range given as keyword argument, dies out so. -/
theorem C152_shipped (d : Dict SVal) (vw vc : ℝ) (hk : ∀ k ∈ whippleKeys, Dict.has d k = true)
    (hd : SelfStableBetween (nums d) (Dict.getD (nums d) "g" 0) vw vc) (v : SVal) (h1 : vw < v.val) (h2 : v.val < vc) :
    ∃ K a : ℝ, 0 < a ∧ ∀ (h : Heap) (s : ℕ) (solve : Solver 4) (t0 : ℝ) (ts x0 : List ℝ) (ys : List (Fin 4 → ℝ))
      (us : List (Fin 2 → ℝ)), h[s]? = some (d.map fun e => (e.1, .num e.2)) → ExactSolver solve →
      (∀ t ∈ ts, t0 ≤ t ∧ t ≤ ts.getLastD t0) → x0.length = 4 →
      (simulate formStateSpaceMatrices solve (t0 :: ts) x0 none s [("v", .num v)] h).1 = .ok (ys, us) →
      ys.length = (t0 :: ts).length ∧
      ∀ p ∈ (t0 :: ts).zip ys, ∀ i, |p.2 i| ≤ K * Real.exp (-a * (p.1 - t0)) * (x0.map abs).sum := by
  have hv : Dict.has d "v" = true := hk "v" (by decide)
  have hcomp : Compatible d [("v", .num v)] 0 :=
    ⟨fun k _ => by simp, fun k ys _ hm => by simp at hm⟩
  refine C152_simulations_die_out C96_whipple d [("v", .num v)] 0 (by simp [Dict.keys]) hcomp
    hk (fun k hk' => by obtain ⟨-, ys, hm⟩ := hk'; simp at hm) ?_
  have e : (stateSpaceOf (evaluatedAt d [("v", .num v)] 0)).1 =
      (stateSpaceOf (evaluatedAt d [("v", .arr [v])] 0)).1 := by
    rw [stateSpaceOf_congr fun k => ?_]
    rw [find?_nums, find?_nums, find?_evaluatedAt, find?_evaluatedAt]
    by_cases hkv : k = "v"
    · subst hkv
      cases d.find? "v" <;> simp [Dict.find?, chosen]
    · have e1 : Dict.find? [("v", OVal.num v)] k = none := by simp [Dict.find?, Ne.symm hkv]
      have e2 : Dict.find? [("v", OVal.arr [v])] k = none := by simp [Dict.find?, Ne.symm hkv]
      rw [e1, e2]
  rw [e, stateSpace_at_speed d hv [v] 0 (by simp)]
  obtain ⟨d', c, hc, hst⟩ := hd
  rw [canonical_of_keys _ fun k hk' => by
    rw [has_nums]; exact hk k (List.mem_append_left _ hk')] at hc
  have hcc : (Bench.ofDict (nums d)).canon = c := by simpa using (Prod.mk.inj hc).2
  rw [StableCheck.canonOf, hcc]
  exact (hst _).2 ⟨h1, h2⟩

/-! ## The converse -/

/-- Without arrays and inputs `simulate` returns with the ideal solver, whatever the model is: C152 speaks of every model. -/
theorem simulate_returned (hm : IsModel form ok f rel) (stored : Dict SVal) (ov : Dict OVal) (n : ℕ)
    (hn : ov.keys.Nodup) (hc : Compatible stored ov n) (hok : ok stored ov n) (hno : ∀ k, ¬ Swept stored ov k)
    (h : Heap) (s : ℕ) (hs : h[s]? = some (stored.map fun e => (e.1, .num e.2))) (t0 : ℝ) (ts x0 : List ℝ)
    (hx : x0.length = m) :
    ∃ ys us, (simulate form (idealSolver m) (t0 :: ts) x0 none s ov h).1 = .ok (ys, us) := by
  obtain ⟨ext, e⟩ := simulate_run hm (idealSolver m) t0 ts x0 none h s stored ov n hs hn hc hok hno hx
  rw [e]
  set A := (f (evaluatedAt stored ov 0)).1
  obtain ⟨y, hy0, hy⟩ := motion_exists A fun i : Fin m => x0.getD i 0
  have hex : ∃ x : ℝ → Fin m → ℝ, (x t0 = fun i : Fin m => x0.getD i 0) ∧
      SolutionOn (evalRhs A (f (evaluatedAt stored ov 0)).2 none) t0 (ts.getLastD t0) x := by
    refine ⟨fun t => y (t - t0), by simpa using hy0, fun t _ => ?_⟩
    have := (hy (t - t0)).scomp t ((hasDerivAt_id t).sub_const t0)
    rw [one_smul] at this
    exact this.hasDerivWithinAt
  simp only [idealSolver]
  rw [dif_pos hex]
  exact ⟨_, _, rfl⟩

/-- **C152.** Conversely: if one exponential bounds the simulations from time 0 of an ideal solver, all eigenvalues have
negative real parts. -/
theorem C152_only_at_stable_speeds (hm : IsModel form ok f rel) (stored : Dict SVal) (ov : Dict OVal) (n : ℕ)
    (hn : ov.keys.Nodup) (hc : Compatible stored ov n) (hok : ok stored ov n) (hno : ∀ k, ¬ Swept stored ov k)
    (h : Heap) (s : ℕ) (hs : h[s]? = some (stored.map fun e => (e.1, .num e.2))) (K a : ℝ) (ha : 0 < a)
    (hb : ∀ (t : ℝ) (x0 : List ℝ) (ys : List (Fin m → ℝ)) (us : List (Fin k → ℝ)), 0 ≤ t → x0.length = m →
      (simulate form (idealSolver m) [0, t] x0 none s ov h).1 = .ok (ys, us) →
      ∀ p ∈ [0, t].zip ys, ∀ i, |p.2 i| ≤ K * Real.exp (-a * p.1) * (x0.map abs).sum) :
    ∀ l : ℂ, IsEigenvalue (toC (f (evaluatedAt stored ov 0)).1) l → l.re < 0 := by
  rw [diesOut_iff]
  intro x hx i
  have key : ∀ t ≥ 0, |x t i| ≤ K * Real.exp (-a * t) * ((List.ofFn (x 0)).map abs).sum := fun t ht => by
    have hl : (List.ofFn (x 0)).length = m := by simp
    obtain ⟨ys, us, hys⟩ := simulate_returned hm stored ov n hn hc hok hno h s hs 0 [t] (List.ofFn (x 0)) hl
    have hsol : SolutionOn (fun _ x => (f (evaluatedAt stored ov 0)).1 *ᵥ x) 0 ([t].getLastD 0) x := fun r hr =>
      (hx r hr.1).mono fun q hq => hq.1
    have hy := C97_simulate_free_unique hm (idealSolver m) (example_exact_solver m) 0 [t] (List.ofFn (x 0))
      (by simpa using ht) h s stored ov n hs hn hc hok hno hl ys us hys x (fun i => by simp) hsol
    subst hy
    exact hb t _ _ us ht hl hys (t, x t) (by simp) i
  have h1 : Filter.Tendsto (fun t : ℝ => a * t) Filter.atTop Filter.atTop := Filter.tendsto_id.const_mul_atTop ha
  have h2 := Real.tendsto_exp_neg_atTop_nhds_zero.comp h1
  have hlim : Filter.Tendsto (fun t : ℝ => K * Real.exp (-a * t) * ((List.ofFn (x 0)).map abs).sum) Filter.atTop
      (nhds 0) := by
    have := (h2.const_mul K).mul_const ((List.ofFn (x 0)).map abs).sum
    simpa [neg_mul, Function.comp_def] using this
  refine squeeze_zero_norm' ?_ hlim
  filter_upwards [Filter.eventually_ge_atTop 0] with t ht
  exact key t ht

/-- non-vacuity of C152: the Browser with Jason at 6 m/s, pushed over to 0.1 rad, simulated for one second -/
theorem example_simulation : ∃ K a : ℝ, 0 < a ∧ ∃ ys us,
    (simulate formStateSpaceMatrices (idealSolver 4) [0, 1] [0.1, 0, 0, 0] none 0 [("v", .num ⟨.pyFloat, 6⟩)]
      [(floats (realDict browserJason)).map fun e => (e.1, .num e.2)]).1 = .ok (ys, us) ∧
    ∀ p ∈ [0, 1].zip ys, ∀ i, |p.2 i| ≤ K * Real.exp (-a * (p.1 - 0)) * (([0.1, 0, 0, 0] : List ℝ).map abs).sum := by
  obtain ⟨vw, vc, h1, h2, h3⟩ := C150_browser_jason
  rw [abs_lt] at h1 h2
  have hg : Dict.getD (realDict browserJason) "g" 0 = 9.81 := by rw [realDict_getD, example_shipped.2.1]; norm_num
  have hk : ∀ k ∈ whippleKeys, Dict.has (floats (realDict browserJason)) k = true := fun k hk => by
    rw [← has_nums, nums_floats, realDict_has]; exact example_shipped.1 k hk
  obtain ⟨K, a, ha, H⟩ := C152_shipped (floats (realDict browserJason)) vw vc hk
    (by rw [nums_floats, hg]; exact h3) ⟨.pyFloat, 6⟩
    (by show vw < 6; norm_num at h1 ⊢; linarith [h1.2]) (by show 6 < vc; norm_num at h2 ⊢; linarith [h2.1])
  obtain ⟨ys, us, hys⟩ := simulate_returned C96_whipple (floats (realDict browserJason)) [("v", .num ⟨.pyFloat, 6⟩)] 0
    (by simp [Dict.keys]) ⟨fun k _ => by simp, fun k ys _ hm => by simp at hm⟩
    hk (fun k hk' => by obtain ⟨-, ys, hm⟩ := hk'; simp at hm)
    [(floats (realDict browserJason)).map fun e => (e.1, .num e.2)] 0 rfl 0 [1] [0.1, 0, 0, 0] rfl
  exact ⟨K, a, ha, ys, us, hys, (H _ 0 (idealSolver 4) 0 [1] [0.1, 0, 0, 0] ys us rfl (example_exact_solver 4)
    (by simp) rfl hys).2⟩

end BP
