import Verif.Lemmas.Decay
import Verif.Props.Gains

/-!
# C147: what a stable speed means for the motions

The eigenvalue plots shade the speeds at which all real parts are negative.  At those, and at no others, every free motion of
the state space form dies out.
-/

set_option linter.unusedSimpArgs false

namespace BP

open Real Matrix Spec Set Filter Topology

/-! ## Specification -/

/-- A free motion of the linear system: from time 0 on the state changes at the rate `A x`. -/
def Spec.FreeMotion {n : ℕ} (A : Matrix (Fin n) (Fin n) ℝ) (x : ℝ → Fin n → ℝ) : Prop :=
  ∀ t ≥ 0, HasDerivWithinAt x (A *ᵥ x t) (Ici 0) t

/-- A motion dies out: every state goes to zero. -/
def Spec.DiesOut {n : ℕ} (x : ℝ → Fin n → ℝ) : Prop := ∀ i, Tendsto (fun t => x t i) atTop (𝓝 0)

/-! ## Theorems -/

/-- All eigenvalues of a real matrix have negative real parts iff all free motions die out. -/
theorem diesOut_iff {n : ℕ} (A : Matrix (Fin n) (Fin n) ℝ) :
    (∀ l : ℂ, IsEigenvalue (toC A) l → l.re < 0) ↔ ∀ x, FreeMotion A x → DiesOut x := by
  constructor
  · intro h x hx i
    obtain ⟨a, ha, hdec⟩ := decays (toC A) h
    obtain ⟨C, hC⟩ := hdec (fun t i => (x t i : ℂ)) fun t ht => motion_toC A x t _ (hx t ht)
    have hb : ∀ t ≥ 0, |x t i| ≤ C * Real.exp (-a * t) := by
      intro t ht
      have h1 := norm_le_pi_norm (fun i => (x t i : ℂ)) i
      simp at h1
      exact h1.trans (hC t ht)
    have hlim : Tendsto (fun t : ℝ => C * Real.exp (-a * t)) atTop (𝓝 0) := by
      have h1 : Tendsto (fun t : ℝ => a * t) atTop atTop := tendsto_id.const_mul_atTop ha
      have h2 : Tendsto (fun t : ℝ => Real.exp (-(a * t))) atTop (𝓝 0) := Real.tendsto_exp_neg_atTop_nhds_zero.comp h1
      simpa [neg_mul] using h2.const_mul C
    refine squeeze_zero_norm' ?_ hlim
    filter_upwards [eventually_ge_atTop 0] with t ht
    exact hb t ht
  · rintro h l ⟨x, hx, hl⟩
    by_contra hn
    push Not at hn
    have hm := fun t => motion_parts A (fun t : ℝ => Complex.exp (l * t) • x) t (mode_is_motion (toC A) l x hl t)
    have hre := h (fun t i => ((Complex.exp (l * t) • x) i).re) fun t _ => (hm t).1.hasDerivWithinAt
    have him := h (fun t i => ((Complex.exp (l * t) • x) i).im) fun t _ => (hm t).2.hasDerivWithinAt
    apply hx
    funext i
    have hs := ((hre i).pow 2).add ((him i).pow 2)
    have e0 : (0 : ℝ) ^ 2 + 0 ^ 2 = 0 := by norm_num
    rw [e0] at hs
    have h0 : Tendsto (fun t : ℝ => ‖x i‖ ^ 2) atTop (𝓝 0) := by
      refine squeeze_zero' (Eventually.of_forall fun _ => by positivity) ?_ hs
      filter_upwards [eventually_ge_atTop 0] with t ht
      have h1 : ((Complex.exp (l * t) • x) i).re ^ 2 + ((Complex.exp (l * t) • x) i).im ^ 2 =
          ‖(Complex.exp (l * t) • x) i‖ ^ 2 := by
        rw [← Complex.normSq_eq_norm_sq, Complex.normSq_apply]; ring
      rw [h1, Pi.smul_apply, norm_smul, Complex.norm_exp]
      have h2 : 1 ≤ Real.exp (l * (t : ℂ)).re := by
        rw [Real.one_le_exp_iff]
        simp
        positivity
      have h3 := norm_nonneg (x i)
      have h4 : ‖x i‖ ≤ Real.exp (l * (t : ℂ)).re * ‖x i‖ := by nlinarith
      exact pow_le_pow_left₀ h3 h4 2
    have h1 : ‖x i‖ ^ 2 = 0 := tendsto_nhds_unique tendsto_const_nhds h0
    simpa using h1

/-- **C147.** A bicycle is self-stable at a speed, in the sense of the eigenvalues, iff every free motion at that speed dies
out. -/
theorem C147_stable_iff (c : Canon) (v g : ℝ) :
    Damped c v g ↔ ∀ x, FreeMotion (abA c.M c.C1 c.K0 c.K2 v g) x → DiesOut x :=
  diesOut_iff _

/-- **C147.** In terms of the parameters: exactly when the inequalities of Routh and Hurwitz hold. -/
theorem C147_routh_hurwitz (c : Canon) (v g : ℝ) (hM : 0 < c.M.det) :
    RouthHurwitz c v g ↔ ∀ x, FreeMotion (abA c.M c.C1 c.K0 c.K2 v g) x → DiesOut x := by
  rw [← C142_routh_hurwitz c v g hM, C147_stable_iff]

/-- **C147.** At a stable speed all motions die out at least as fast as one exponential. -/
theorem C147_common_rate (c : Canon) (v g : ℝ) (h : Damped c v g) :
    ∃ a > 0, ∀ x, FreeMotion (abA c.M c.C1 c.K0 c.K2 v g) x → ∃ C, ∀ t ≥ 0, ∀ i, |x t i| ≤ C * Real.exp (-a * t) := by
  obtain ⟨a, ha, hdec⟩ := decays _ h
  refine ⟨a, ha, fun x hx => ?_⟩
  obtain ⟨C, hC⟩ := hdec (fun t i => (x t i : ℂ)) fun t ht => motion_toC _ x t _ (hx t ht)
  refine ⟨C, fun t ht i => ?_⟩
  have h1 := norm_le_pi_norm (fun i => (x t i : ℂ)) i
  simp at h1
  exact h1.trans (hC t ht)

/-- **C147.** With the feedback model: for every bicycle with an invertible mass matrix there are gains with which every free
motion of the returned state matrix dies out. -/
theorem C147_gains (h : Heap) (s : ℕ) (stored : Dict SVal)
    (hs : h[s]? = some (stored.map fun e => (e.1, .num e.2))) (hD : ∀ k ∈ feedbackKeys, stored.has k = true)
    (hM : (Bench.ofDict (nums stored)).canon.M.det ≠ 0) :
    ∃ G A B ext, formFeedbackMatrices s (gainArgs G) h = (.ok (.one (A, B)), h ++ ext) ∧
      ∀ x, FreeMotion A x → DiesOut x := by
  obtain ⟨G, A, B, ext, he, hl⟩ := C144_gains_stabilise h s stored hs hD hM
  exact ⟨G, A, B, ext, he, (diesOut_iff A).1 hl⟩

/-- **C147.** A physical bicycle that stands still falls over: a free motion, starting as near to upright as one likes, that
does not die out. -/
theorem C147_falls_at_rest (p : Bench) (h : p.Physical) (hB : InPlanePD p.IBxx p.IBxz p.IBzz)
    (hH : InPlanePD p.IHxx p.IHxz p.IHzz) (g : ℝ) (hg : 0 < g) (hz : p.zT < 0) (e : ℝ) (he : 0 < e) :
    ∃ x, FreeMotion (abA p.canon.M p.canon.C1 p.canon.K0 p.canon.K2 0 g) x ∧ (∀ i, |x 0 i| ≤ e) ∧ ¬ DiesOut x := by
  obtain ⟨l, hl, hev⟩ := C76_unstable_at_rest p h hB hH g hg hz
  have hnot : ¬ ∀ x, FreeMotion (abA p.canon.M p.canon.C1 p.canon.K0 p.canon.K2 0 g) x → DiesOut x := by
    rw [← C147_stable_iff]
    intro hd
    have := hd _ hev
    simp at this
    linarith
  push Not at hnot
  obtain ⟨x, hx, hnd⟩ := hnot
  have hb : ∃ b > 0, ∀ i, |x 0 i| ≤ b := by
    refine ⟨‖x 0‖ + 1, by positivity, fun i => ?_⟩
    have := norm_le_pi_norm (x 0) i
    rw [Real.norm_eq_abs] at this
    linarith
  obtain ⟨b, hb0, hb⟩ := hb
  refine ⟨fun t => (e / b) • x t, fun t ht => ?_, fun i => ?_, fun hd => hnd fun i => ?_⟩
  · rw [Matrix.mulVec_smul]
    exact (hx t ht).const_smul (e / b)
  · simp only [Pi.smul_apply, smul_eq_mul, abs_mul, abs_of_pos (div_pos he hb0)]
    have := mul_le_mul_of_nonneg_left (hb i) (div_pos he hb0).le
    rwa [div_mul_cancel₀ _ hb0.ne'] at this
  · have := (hd i).const_mul (b / e)
    simp only [Pi.smul_apply, smul_eq_mul, mul_zero] at this
    refine this.congr fun t => ?_
    field_simp

/-- non-vacuity of C147: every system has a free motion that is not zero; the bicycle of C142 is stable at 6 m/s -/
theorem example_decay : Damped steadyCanon 6 (981 / 100) ∧
    ∃ x, FreeMotion (abA steadyCanon.M steadyCanon.C1 steadyCanon.K0 steadyCanon.K2 6 (981 / 100)) x ∧ x 0 ≠ 0 := by
  refine ⟨steady_damped 6 (by norm_num) (by norm_num), ?_⟩
  generalize abA steadyCanon.M steadyCanon.C1 steadyCanon.K0 steadyCanon.K2 6 (981 / 100) = A
  obtain ⟨l, hl⟩ := IsAlgClosed.exists_root (toC A).charpoly (by
    rw [Matrix.charpoly_degree_eq_dim]; simp)
  have hev : IsEigenvalue (toC A) l := by
    refine (isEigenvalue_iff_det _ l).2 ?_
    rw [Polynomial.IsRoot, Matrix.eval_charpoly] at hl
    rw [← hl]
    congr 1
    ext i j
    simp [Matrix.scalar_apply, Matrix.one_apply, Matrix.diagonal_apply]
  obtain ⟨x, hx, he⟩ := hev
  have hm := fun t => motion_parts A (fun t : ℝ => Complex.exp (l * t) • x) t (mode_is_motion (toC A) l x he t)
  by_cases h0 : (fun i => (x i).re) = 0
  · refine ⟨fun t i => ((Complex.exp (l * t) • x) i).im, fun t _ => (hm t).2.hasDerivWithinAt, fun hc => hx ?_⟩
    funext i
    have h1 := congrFun h0 i
    have h2 := congrFun hc i
    simp at h1 h2
    exact Complex.ext h1 h2
  · exact ⟨fun t i => ((Complex.exp (l * t) • x) i).re, fun t _ => (hm t).1.hasDerivWithinAt, fun hc => h0 (by
      funext i; have := congrFun hc i; simpa using this)⟩

end BP
