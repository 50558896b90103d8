import Mathlib.Data.List.FinRange
import Mathlib.Topology.Instances.Matrix
import Mathlib.Topology.Sequences
import Mathlib.Topology.MetricSpace.ProperSpace
import Mathlib.LinearAlgebra.Matrix.Charpoly.Coeff
import Mathlib.Algebra.Polynomial.Roots
import Verif.Props.Branches
import Verif.Props.Bicycle

/-!
# C161: with small enough steps in speed `sort_eigenmodes` loses no eigenvalue of the state matrix
-/

set_option linter.unusedSimpArgs false

namespace BP

open Spec Set Filter Topology Matrix

/-- `L 0, …, L (m - 1)` are `m` different eigenvalues of the `m`×`m` matrix `A`, that is, all its eigenvalues. -/
def Spec.AllEigenvalues {m : ℕ} (A : Matrix (Fin m) (Fin m) ℂ) (L : Fin m → ℂ) : Prop :=
  Function.Injective L ∧ ∀ j, IsEigenvalue A (L j)

theorem eigenvalue_le {m : ℕ} {A : Matrix (Fin m) (Fin m) ℂ} {R : ℝ} (h : ∀ i, ∑ j, ‖A i j‖ ≤ R) {l : ℂ} (hl : IsEigenvalue A l) :
    ‖l‖ ≤ R := by
  obtain ⟨x, hx, he⟩ := hl
  obtain ⟨k, hk⟩ := Function.ne_iff.1 hx
  have : Nonempty (Fin m) := ⟨k⟩
  obtain ⟨i, hi⟩ := Finite.exists_max fun j => ‖x j‖
  have hpos : 0 < ‖x i‖ := (norm_pos_iff.2 hk).trans_le (hi k)
  have e := congrFun he i
  have h1 : ‖l‖ * ‖x i‖ ≤ R * ‖x i‖ := by
    rw [← norm_mul]
    have : l * x i = ∑ j, A i j * x j := e.symm
    rw [this]
    refine (norm_sum_le _ _).trans ?_
    calc ∑ j, ‖A i j * x j‖ ≤ ∑ j, ‖A i j‖ * ‖x i‖ := Finset.sum_le_sum fun j _ => by
            rw [norm_mul]; exact mul_le_mul_of_nonneg_left (hi j) (norm_nonneg _)
      _ = (∑ j, ‖A i j‖) * ‖x i‖ := by rw [Finset.sum_mul]
      _ ≤ R * ‖x i‖ := mul_le_mul_of_nonneg_right (h i) hpos.le
  exact le_of_mul_le_mul_right h1 hpos

theorem all_prod {m : ℕ} {A : Matrix (Fin m) (Fin m) ℂ} {L : Fin m → ℂ} (h : AllEigenvalues A L) (x : ℂ) :
    ∏ i, (x - L i) = (x • (1 : Matrix (Fin m) (Fin m) ℂ) - A).det := by
  have ev : ∀ x : ℂ, A.charpoly.eval x = (x • (1 : Matrix (Fin m) (Fin m) ℂ) - A).det := fun x => by
    rw [Matrix.eval_charpoly]
    congr 1
    ext i j
    simp [Matrix.scalar_apply, Matrix.one_apply, Matrix.diagonal_apply]
  have hm := A.charpoly_monic
  have hd : A.charpoly.natDegree = m := by rw [A.charpoly_natDegree_eq_dim]; simp
  have hn : (Finset.univ.val.map L).Nodup := Finset.univ.nodup.map h.1
  have hle : Finset.univ.val.map L ≤ A.charpoly.roots := by
    rw [Multiset.le_iff_subset hn]
    intro y hy
    obtain ⟨j, _, rfl⟩ := Multiset.mem_map.1 hy
    rw [Polynomial.mem_roots hm.ne_zero, Polynomial.IsRoot, ev, ← isEigenvalue_iff_det]
    exact h.2 j
  have hc : Multiset.card (Finset.univ.val.map L) = m := by simp
  have hr : Multiset.card A.charpoly.roots ≤ m := by
    have := A.charpoly.card_roots'
    omega
  have heq := Multiset.eq_of_le_of_card_le hle (by omega)
  have hp := Polynomial.prod_multiset_X_sub_C_of_monic_of_roots_card_eq hm (by rw [← heq, hc, hd])
  rw [← ev, ← hp, ← heq, Multiset.map_map, Polynomial.eval_multiset_prod, Multiset.map_map]
  simp [Finset.prod]

theorem of_prod {m : ℕ} {A : Matrix (Fin m) (Fin m) ℂ} {L M : Fin m → ℂ} (h : AllEigenvalues A L)
    (hp : ∀ x : ℂ, ∏ i, (x - M i) = (x • (1 : Matrix (Fin m) (Fin m) ℂ) - A).det) :
    ∃ τ : Equiv.Perm (Fin m), ∀ j, M (τ j) = L j := by
  have : ∀ j, ∃ i, M i = L j := fun j => by
    have h0 := (isEigenvalue_iff_det A (L j)).1 (h.2 j)
    rw [← hp, Finset.prod_eq_zero_iff] at h0
    obtain ⟨i, _, hi⟩ := h0
    exact ⟨i, (sub_eq_zero.1 hi).symm⟩
  choose f hf using this
  have hinj : Function.Injective f := fun a b hab => h.1 (by rw [← hf a, ← hf b, hab])
  exact ⟨Equiv.ofBijective f (Finite.injective_iff_bijective.1 hinj), hf⟩

/-- For matrices that depend continuously on the speed and have different eigenvalues between `a` and `b`. -/
theorem small_step {m : ℕ} (A : ℝ → Matrix (Fin m) (Fin m) ℂ) (hA : Continuous A) (a b : ℝ)
    (hd : ∀ s ∈ Icc a b, ∃ L, AllEigenvalues (A s) L) :
    ∃ δ > 0, ∀ s ∈ Icc a b, ∀ t ∈ Icc a b, |t - s| < δ → ∀ L M, AllEigenvalues (A s) L → AllEigenvalues (A t) M →
      ∃ σ : Equiv.Perm (Fin m), SmallStep L fun j => M (σ j) := by
  by_contra hc
  push Not at hc
  have hpos : ∀ n : ℕ, (0 : ℝ) < 1 / (n + 1) := fun n => by positivity
  choose s hs t ht hst L M hL hM hbad using fun n : ℕ => hc (1 / (n + 1)) (hpos n)
  -- the eigenvalues are bounded
  obtain ⟨R, hR⟩ : ∃ R : ℝ, ∀ s ∈ Icc a b, ∀ i, ∑ j, ‖A s i j‖ ≤ R := by
    have hcont : Continuous fun s => ∑ i, ∑ j, ‖A s i j‖ := continuous_finsetSum _ fun i _ =>
      continuous_finsetSum _ fun j _ => (hA.matrix_elem i j).norm
    obtain ⟨R, hR⟩ := (isCompact_Icc (a := a) (b := b)).bddAbove_image hcont.continuousOn
    refine ⟨R, fun s hs i => ?_⟩
    have h1 : ∑ i, ∑ j, ‖A s i j‖ ≤ R := hR (Set.mem_image_of_mem _ hs)
    refine le_trans ?_ h1
    exact Finset.single_le_sum (f := fun i => ∑ j, ‖A s i j‖) (fun i _ => Finset.sum_nonneg fun j _ => norm_nonneg _)
      (Finset.mem_univ i)
  have hK : IsCompact ((Icc a b) ×ˢ ((Set.univ.pi fun _ : Fin m => Metric.closedBall (0 : ℂ) R) ×ˢ
      (Set.univ.pi fun _ : Fin m => Metric.closedBall (0 : ℂ) R))) :=
    isCompact_Icc.prod ((isCompact_univ_pi fun _ => isCompact_closedBall _ _).prod
      (isCompact_univ_pi fun _ => isCompact_closedBall _ _))
  have hmem : ∀ n, (s n, L n, M n) ∈ (Icc a b) ×ˢ ((Set.univ.pi fun _ : Fin m => Metric.closedBall (0 : ℂ) R) ×ˢ
      (Set.univ.pi fun _ : Fin m => Metric.closedBall (0 : ℂ) R)) := fun n => by
    refine ⟨hs n, fun j _ => ?_, fun j _ => ?_⟩
    · rw [mem_closedBall_zero_iff]; exact eigenvalue_le (hR _ (hs n)) ((hL n).2 j)
    · rw [mem_closedBall_zero_iff]; exact eigenvalue_le (hR _ (ht n)) ((hM n).2 j)
  obtain ⟨⟨s₀, L₀, M₀⟩, h0, φ, hφ, hlim⟩ := hK.tendsto_subseq hmem
  have ls : Tendsto (fun n => s (φ n)) atTop (𝓝 s₀) := (continuous_fst.tendsto _).comp hlim
  have lL : Tendsto (fun n => L (φ n)) atTop (𝓝 L₀) := ((continuous_fst.comp continuous_snd).tendsto _).comp hlim
  have lM : Tendsto (fun n => M (φ n)) atTop (𝓝 M₀) := ((continuous_snd.comp continuous_snd).tendsto _).comp hlim
  have lL' : ∀ j, Tendsto (fun n => L (φ n) j) atTop (𝓝 (L₀ j)) := fun j => ((continuous_apply j).tendsto _).comp lL
  have lM' : ∀ j, Tendsto (fun n => M (φ n) j) atTop (𝓝 (M₀ j)) := fun j => ((continuous_apply j).tendsto _).comp lM
  have lt : Tendsto (fun n => t (φ n)) atTop (𝓝 s₀) := by
    have h1 : Tendsto (fun n : ℕ => 1 / ((φ n : ℝ) + 1)) atTop (𝓝 0) :=
      tendsto_one_div_add_atTop_nhds_zero_nat.comp hφ.tendsto_atTop
    have h2 : Tendsto (fun n => t (φ n) - s (φ n)) atTop (𝓝 0) :=
      squeeze_zero_norm (fun n => (hst (φ n)).le) h1
    simpa using h2.add ls
  have hdet : ∀ x : ℂ, Continuous fun s => (x • (1 : Matrix (Fin m) (Fin m) ℂ) - A s).det := fun x =>
    (continuous_const.sub hA).matrix_det
  have pL : ∀ x : ℂ, ∏ i, (x - L₀ i) = (x • (1 : Matrix (Fin m) (Fin m) ℂ) - A s₀).det := fun x => by
    refine tendsto_nhds_unique (tendsto_finsetProd _ fun i _ => tendsto_const_nhds.sub (lL' i)) ?_
    refine (((hdet x).tendsto s₀).comp ls).congr fun n => ?_
    exact (all_prod (hL (φ n)) x).symm
  have pM : ∀ x : ℂ, ∏ i, (x - M₀ i) = (x • (1 : Matrix (Fin m) (Fin m) ℂ) - A s₀).det := fun x => by
    refine tendsto_nhds_unique (tendsto_finsetProd _ fun i _ => tendsto_const_nhds.sub (lM' i)) ?_
    refine (((hdet x).tendsto s₀).comp lt).congr fun n => ?_
    exact (all_prod (hM (φ n)) x).symm
  obtain ⟨E, hE⟩ := hd s₀ h0.1
  obtain ⟨τ, hτ⟩ := of_prod hE pL
  obtain ⟨ρ, hρ⟩ := of_prod hE pM
  -- the limits agree after a permutation
  have hlm : ∀ j, M₀ ((τ.symm.trans ρ) j) = L₀ j := fun j => by
    rw [Equiv.trans_apply, hρ, ← hτ, Equiv.apply_symm_apply]
  have hinj : ∀ j k, k ≠ j → L₀ j ≠ L₀ k := fun j k hk he => hk (by
    have h1 := hτ (τ.symm j)
    have h2 := hτ (τ.symm k)
    rw [Equiv.apply_symm_apply] at h1 h2
    exact (τ.symm.injective (hE.1 (by rw [← h1, ← h2, he]))).symm)
  have hev : ∀ᶠ n in atTop, SmallStep (L (φ n)) fun j => M (φ n) ((τ.symm.trans ρ) j) := by
    refine eventually_all.2 fun j => eventually_all.2 fun k => ?_
    by_cases hk : k = j
    · exact Eventually.of_forall fun n h => absurd hk h
    · have e1 : Tendsto (fun n => dist (L (φ n) j) (M (φ n) ((τ.symm.trans ρ) j))) atTop (𝓝 (dist (L₀ j) (L₀ j))) := by
        have := (lL' j).dist (lM' ((τ.symm.trans ρ) j))
        rwa [hlm] at this
      have e2 : Tendsto (fun n => dist (L (φ n) j) (M (φ n) ((τ.symm.trans ρ) k))) atTop (𝓝 (dist (L₀ j) (L₀ k))) := by
        have := (lL' j).dist (lM' ((τ.symm.trans ρ) k))
        rwa [hlm] at this
      have hlt : dist (L₀ j) (L₀ j) < dist (L₀ j) (L₀ k) := by
        rw [dist_self]; exact dist_pos.2 (hinj j k hk)
      exact (e1.eventually_lt e2 hlt).mono fun n h _ => h
  obtain ⟨n, hn⟩ := hev.exists
  exact hbad (φ n) (τ.symm.trans ρ) hn

/-- A row of eigenvalues of `A` and of eigenvectors, as `numpy.linalg.eig` returns them, in any order, all eigenvalues different. -/
def Spec.EigenRow {V : Type} {m : ℕ} (A : Matrix (Fin m) (Fin m) ℂ) (r : EigRow V) : Prop :=
  r.evals.length = m ∧ r.evecs.length = m ∧ r.evals.Nodup ∧ ∀ l ∈ r.evals, IsEigenvalue A l

theorem eigenRow_all {V : Type} [Inhabited V] {m : ℕ} {A : Matrix (Fin m) (Fin m) ℂ} {r : EigRow V} (h : EigenRow A r) :
    ∃ (L : Fin m → ℂ) (W : Fin m → V), AllEigenvalues A L ∧ r = ⟨List.ofFn L, List.ofFn W⟩ := by
  obtain ⟨rl, rv⟩ := r
  obtain ⟨h1, h2, h3, h4⟩ := h
  simp only at h1 h2 h3 h4
  subst h1
  have e1 : rl = List.ofFn fun j : Fin rl.length => rl[(j : ℕ)] := (List.ofFn_getElem).symm
  have e2 : rv = List.ofFn fun j : Fin rl.length => rv[(j : ℕ)]'(by rw [h2]; exact j.2) := by
    refine List.ext_getElem (by simp [h2]) fun i _ _ => by simp
  refine ⟨_, _, ⟨fun a b hab => ?_, fun j => ?_⟩, by rw [← e1, ← e2]⟩
  · exact Fin.ext (h3.getElem_inj_iff.1 hab)
  · exact h4 _ (List.getElem_mem _)

/-- **C161.** For any matrices of any size that depend continuously on the speed and have no repeated eigenvalue between `a` and
`b` there is a step so small that for all speeds between `a` and `b` in smaller steps, and whatever the order of the eigenvalues at
each speed, each row of the result of `sort_eigenmodes` is a permutation of the eigenvalues at that speed. -/
theorem C161_no_eigenvalue_lost {V : Type} [Inhabited V] {m : ℕ} (A : ℝ → Matrix (Fin m) (Fin m) ℂ) (hA : Continuous A) (a b : ℝ)
    (hd : ∀ s ∈ Icc a b, ∃ L, AllEigenvalues (A s) L) :
    ∃ δ > 0, ∀ (speeds : List ℝ) (rows : List (EigRow V)), (∀ s ∈ speeds, s ∈ Icc a b) →
      List.IsChain (fun s t => |t - s| < δ) speeds → List.Forall₂ (fun s r => EigenRow (A s) r) speeds rows →
      List.Forall₂ (fun r r' => List.Perm r.evals r'.evals) rows (sortEigenmodes rows) := by
  obtain ⟨δ, hδ, hstep⟩ := small_step A hA a b hd
  refine ⟨δ, hδ, ?_⟩
  have main : ∀ (speeds : List ℝ) (rows : List (EigRow V)) (s : ℝ) (L : Fin m → ℂ) (W : List V), (∀ x ∈ s :: speeds, x ∈ Icc a b) →
      List.IsChain (fun s t => |t - s| < δ) (s :: speeds) → List.Forall₂ (fun s r => EigenRow (A s) r) speeds rows →
      AllEigenvalues (A s) L →
      List.Forall₂ (fun r r' => List.Perm r.evals r'.evals) rows (sortFrom ⟨List.ofFn L, W⟩ rows) := by
    intro speeds
    induction speeds with
    | nil => intro rows s L W _ _ hr _; cases hr; exact .nil
    | cons t speeds ih =>
      intro rows s L W hI hc hr hL
      cases hr with
      | @cons _ r _ rows h1 h2 =>
        obtain ⟨M, U, hM, rfl⟩ := eigenRow_all h1
        rw [List.isChain_cons_cons] at hc
        obtain ⟨σ, hσ⟩ := hstep s (hI s (by simp)) t (hI t (by simp)) hc.1 L M hL hM
        have hsw := sweep_branch hσ (fun j => U (σ j)) ⟨List.ofFn M, List.ofFn U⟩ ⟨σ.symm, by simp, by simp⟩
        simp only [sortFrom, hsw]
        refine .cons ?_ (ih rows t _ _ (fun x hx => hI x (List.mem_cons_of_mem _ hx)) hc.2 h2 ?_)
        · exact (Equiv.Perm.ofFn_comp_perm σ M).symm
        · exact ⟨fun x y h => σ.injective (hM.1 h), fun j => hM.2 _⟩
  intro speeds rows hI hc hr
  cases hr with
  | nil => exact .nil
  | @cons s r speeds rows h1 h2 =>
    obtain ⟨L, W, hL, rfl⟩ := eigenRow_all h1
    exact .cons (List.Perm.refl _) (main speeds rows s L _ hI hc h2 hL)

theorem state_continuous (c : Canon) (g : ℝ) : Continuous fun v : ℝ => toC (abA c.M c.C1 c.K0 c.K2 v g) := by
  refine continuous_matrix fun i j => ?_
  simp only [toC, Matrix.map_apply]
  refine Complex.continuous_ofReal.comp ?_
  have h1 : ∀ i j, Continuous fun v : ℝ => a21 c.M c.K0 c.K2 v g i j := fun i j => by
    simp only [a21, Matrix.neg_apply, Matrix.mul_apply, Fin.sum_univ_two, Matrix.add_apply, Matrix.smul_apply, smul_eq_mul]
    fun_prop
  have h2 : ∀ i j, Continuous fun v : ℝ => a22 c.M c.C1 v i j := fun i j => by
    simp only [a22, Matrix.neg_apply, Matrix.mul_apply, Fin.sum_univ_two, Matrix.add_apply, Matrix.smul_apply, smul_eq_mul]
    fun_prop
  fin_cases i <;> fin_cases j
  all_goals first | exact continuous_const | exact h1 0 0 | exact h1 0 1 | exact h1 1 0 | exact h1 1 1 | exact h2 0 0 | exact h2 0 1 | exact h2 1 0 | exact h2 1 1

/-- **C161.** For every bicycle: between speeds at which the state matrix of `ab_matrix` has no repeated eigenvalue, with small
enough steps, `sort_eigenmodes` loses and doubles no eigenvalue of the bicycle. -/
theorem C161_bicycle {V : Type} [Inhabited V] (c : Canon) (g a b : ℝ)
    (hd : ∀ v ∈ Icc a b, ∃ L, AllEigenvalues (toC (abA c.M c.C1 c.K0 c.K2 v g)) L) :
    ∃ δ > 0, ∀ (speeds : List ℝ) (rows : List (EigRow V)), (∀ v ∈ speeds, v ∈ Icc a b) →
      List.IsChain (fun s t => |t - s| < δ) speeds →
      List.Forall₂ (fun v r => EigenRow (toC (abA c.M c.C1 c.K0 c.K2 v g)) r) speeds rows →
      List.Forall₂ (fun r r' => List.Perm r.evals r'.evals) rows (sortEigenmodes rows) :=
  C161_no_eigenvalue_lost _ (state_continuous c g) a b hd

/-- Canonical matrices with the eigenvalues -v, -2v, -3v, -4v at every speed. -/
def fourModes : Canon := ⟨!![1, 0; 0, 1], !![3, 0; 0, 7], !![0, 0; 0, 0], !![2, 0; 0, 12]⟩

/-- non-vacuity of C161: four different eigenvalues at every speed from 1 to 10 m/s -/
theorem example_four_modes (v : ℝ) (hv : v ∈ Icc (1 : ℝ) 10) :
    ∃ L, AllEigenvalues (toC (abA fourModes.M fourModes.C1 fourModes.K0 fourModes.K2 v 9.81)) L := by
  refine ⟨fun j => ((-((j : ℕ) + 1) * v : ℝ) : ℂ), fun j k h => ?_, fun j => ?_⟩
  · have h1 := Complex.ofReal_injective h
    have h2 := mul_right_cancel₀ (by linarith [hv.1] : v ≠ 0) h1
    exact Fin.ext (by exact_mod_cast (add_right_cancel (neg_injective h2)))
  · rw [C02_eigenvalues_are_roots _ _ _ _ _ _ _ (by simp [fourModes, det_fin_two])]
    fin_cases j <;> simp [fourModes, toC, det_fin_two] <;> ring_nf <;> simp

end BP
