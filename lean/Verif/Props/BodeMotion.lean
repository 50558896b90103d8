import Verif.Props.Decay

/-!
# C148: what the Bode plot says about the motions

`plot_bode` draws gain and phase of a complex number per frequency (C110).  At a self-stable speed that number is the
amplitude and the phase with which every motion under a harmonic torque ends up.
-/

set_option linter.unusedSimpArgs false

namespace BP

open Real Matrix Spec Set Filter Topology

/-! ## Specification -/

/-- A motion of the bicycle at speed `v` under the torque `cos (w t)` on coordinate `u` (roll, steer) and no other: from time 0
on the states are angles and rates, and the equations of motion hold. -/
def Spec.HarmonicMotion (c : Canon) (v g w : ℝ) (u : Fin 2) (x : ℝ → Fin 4 → ℝ) : Prop :=
  ∀ t ≥ 0, ∃ xd, HasDerivWithinAt x xd (Ici 0) t ∧ xd 0 = x t 2 ∧ xd 1 = x t 3 ∧
    c.M *ᵥ ![xd 2, xd 3] + (v • c.C1) *ᵥ ![x t 2, x t 3] + (g • c.K0 + v ^ 2 • c.K2) *ᵥ ![x t 0, x t 1] =
      Real.cos (w * t) • Pi.single u 1

/-! ## Theorems -/

/-- The real part of a harmonic complex quantity, by amplitude and phase. -/
theorem re_harmonic (z : ℂ) (a : ℝ) : (z * Complex.exp (Complex.I * a)).re = ‖z‖ * Real.cos (a + z.arg) := by
  conv_lhs => rw [← Complex.norm_mul_exp_arg_mul_I z]
  rw [mul_assoc, ← Complex.exp_add]
  have : (z.arg : ℂ) * Complex.I + Complex.I * a = ((a + z.arg : ℝ) : ℂ) * Complex.I := by push_cast; ring
  rw [this, Complex.re_ofReal_mul, Complex.exp_ofReal_mul_I_re]

/-- A harmonic solution of the complex equations gives a real motion under a cosine. -/
theorem harmonic_motion (A : Matrix (Fin 4) (Fin 4) ℝ) (b : Fin 4 → ℝ) (w : ℝ) (z : Fin 4 → ℂ)
    (hz : (Complex.I * w) • z = (A.map Complex.ofReal) *ᵥ z + fun i => (b i : ℂ)) (t : ℝ) :
    HasDerivAt (fun t i => ‖z i‖ * Real.cos (w * t + (z i).arg))
      (A *ᵥ (fun i => ‖z i‖ * Real.cos (w * t + (z i).arg)) + Real.cos (w * t) • b) t := by
  have hp : ∀ t : ℝ, ∀ i, ‖z i‖ * Real.cos (w * t + (z i).arg) = (z i * Complex.exp (Complex.I * (w * t : ℝ))).re :=
    fun t i => (re_harmonic _ _).symm
  simp only [hp]
  rw [hasDerivAt_pi]
  intro i
  have h1 : HasDerivAt (fun t : ℝ => Complex.I * ((w * t : ℝ) : ℂ)) (Complex.I * w) t := by
    have := (((hasDerivAt_id t).const_mul w).ofReal_comp).const_mul Complex.I
    simpa using this
  have h2 := (h1.cexp).const_mul (z i)
  have h3 := Complex.reCLM.hasFDerivAt.comp_hasDerivAt t h2
  refine h3.congr_deriv ?_
  have hzi := congrFun hz i
  simp only [Pi.smul_apply, smul_eq_mul, Pi.add_apply, Matrix.mulVec, dotProduct, Matrix.map_apply] at hzi
  have e : z i * (Complex.exp (Complex.I * ((w * t : ℝ) : ℂ)) * (Complex.I * w)) =
      ∑ j, (A i j : ℂ) * (z j * Complex.exp (Complex.I * ((w * t : ℝ) : ℂ))) +
        b i * Complex.exp (Complex.I * ((w * t : ℝ) : ℂ)) := by
    have : z i * (Complex.exp (Complex.I * ((w * t : ℝ) : ℂ)) * (Complex.I * w)) =
        (Complex.I * w * z i) * Complex.exp (Complex.I * ((w * t : ℝ) : ℂ)) := by ring
    rw [this, hzi, add_mul, Finset.sum_mul]
    congr 1
    exact Finset.sum_congr rfl fun j _ => by ring
  have hcos : (Complex.exp (Complex.I * ((w * t : ℝ) : ℂ))).re = Real.cos (w * t) := by
    rw [mul_comm, Complex.exp_ofReal_mul_I_re]
  rw [Complex.reCLM_apply, e, Complex.add_re, Complex.re_sum]
  simp only [Matrix.mulVec, dotProduct, Pi.add_apply, Pi.smul_apply, smul_eq_mul, Complex.re_ofReal_mul, hcos]
  ring

/-- **C148.** At a self-stable speed the response that `plot_bode` draws is unique at every frequency, and under the harmonic
torque every motion, however it starts, approaches the harmonic motion with this amplitude and phase. -/
theorem C148_bode_is_the_steady_answer {params : Dict (Dict ℝ)} {c : Canon} {g : ℝ} (hp : HasModel params c g) (v w : ℝ)
    (u : Fin 2) (y : Fin 4) (hs : Damped c v g) :
    ∃ s z, (bodeSystem params v u y).2 = .ok s ∧ Response s w z ∧ (∀ z', Response s w z' → z' = z) ∧
      ∀ x, HarmonicMotion c v g w u x →
        Tendsto (fun t => x t y - ‖z‖ * Real.cos (w * t + z.arg)) atTop (𝓝 0) := by
  have hw : (pencil c v g (Complex.I * w)).det ≠ 0 := by
    intro h0
    have := hs (Complex.I * w) ((C02_eigenvalues_are_roots _ _ _ _ _ _ _ hp.det).2 h0)
    simp at this
  obtain ⟨s, hss, z, hz, hu⟩ := C110_response_unique hp v w u y hw
  refine ⟨s, z, hss, hz, hu, fun x hx => ?_⟩
  rw [bodeSystem_run hp v u y, Except.ok.injEq] at hss
  subst hss
  obtain ⟨q, hq, hy⟩ := hz
  have hyq : z = q y := by
    rw [hy]
    fin_cases y <;> simp [Fin.sum_univ_four, Matrix.one_apply]
  have hfree : FreeMotion (abA c.M c.C1 c.K0 c.K2 v g)
      (fun t i => x t i - ‖q i‖ * Real.cos (w * t + (q i).arg)) := by
    intro t ht
    obtain ⟨xd, hd, h0, h1, h2⟩ := hx t ht
    have hxd := (C01_ab_matrix_realises_eom c.M c.C1 c.K0 c.K2 v g hp.det (x t) xd _).2 ⟨h0, h1, h2⟩
    have hb : abB c.M *ᵥ (Real.cos (w * t) • Pi.single u 1) = Real.cos (w * t) • fun i => abB c.M i u := by
      rw [Matrix.mulVec_smul, Matrix.mulVec_single_one]; rfl
    rw [hb] at hxd
    rw [hxd] at hd
    have hq' := (harmonic_motion _ _ w q hq t).hasDerivWithinAt (s := Ici 0)
    refine (hd.sub hq').congr_deriv ?_
    show abA c.M c.C1 c.K0 c.K2 v g *ᵥ x t + Real.cos (w * t) • (fun i => abB c.M i u) -
      (abA c.M c.C1 c.K0 c.K2 v g *ᵥ (fun i => ‖q i‖ * Real.cos (w * t + (q i).arg)) +
        Real.cos (w * t) • (fun i => abB c.M i u)) =
      abA c.M c.C1 c.K0 c.K2 v g *ᵥ (x t - fun i => ‖q i‖ * Real.cos (w * t + (q i).arg))
    rw [Matrix.mulVec_sub]
    abel
  rw [hyq]
  exact (C147_stable_iff c v g).1 hs _ hfree y

/-- non-vacuity of C148: the bicycle of C108 at 4 m/s, which has a motion under every harmonic torque -/
theorem example_bode_motion (w : ℝ) (u : Fin 2) : HasModel [("Benchmark", twoRangesDict)]
    (Bench.ofDict twoRangesDict).canon (981 / 100) ∧ Damped (Bench.ofDict twoRangesDict).canon 4 (981 / 100) ∧
    ∃ x, HarmonicMotion (Bench.ofDict twoRangesDict).canon 4 (981 / 100) w u x := by
  have hd : Damped (Bench.ofDict twoRangesDict).canon 4 (981 / 100) := fun l hl =>
    twoRanges_stable 4 (Or.inl rfl) l ((C02_eigenvalues_are_roots _ _ _ _ _ _ _ twoRanges_hasModel.det).1 hl)
  refine ⟨twoRanges_hasModel, hd, ?_⟩
  obtain ⟨s, z, hs, ⟨q, hq, -⟩, -⟩ := C148_bode_is_the_steady_answer twoRanges_hasModel 4 w u 0 hd
  rw [bodeSystem_run twoRanges_hasModel 4 u 0, Except.ok.injEq] at hs
  subst hs
  generalize hc : (Bench.ofDict twoRangesDict).canon = c at hq
  have hdet : c.M.det ≠ 0 := hc ▸ twoRanges_hasModel.det
  refine ⟨fun t i => ‖q i‖ * Real.cos (w * t + (q i).arg), fun t _ => ?_⟩
  have hm := (harmonic_motion (abA c.M c.C1 c.K0 c.K2 4 (981 / 100)) (fun i => abB c.M i u) w q hq t).hasDerivWithinAt
    (s := Ici 0)
  refine ⟨_, hm, ?_⟩
  have h1 := (C01_ab_matrix_realises_eom c.M c.C1 c.K0 c.K2 4 (981 / 100) hdet
    (fun i => ‖q i‖ * Real.cos (w * t + (q i).arg))
    (abA c.M c.C1 c.K0 c.K2 4 (981 / 100) *ᵥ (fun i => ‖q i‖ * Real.cos (w * t + (q i).arg)) +
      Real.cos (w * t) • fun i => abB c.M i u) (Real.cos (w * t) • Pi.single u 1)).1 (by
    rw [Matrix.mulVec_smul, Matrix.mulVec_single_one]
    rfl)
  exact h1

end BP
