import Verif.Props.Bicycle
import Mathlib.LinearAlgebra.Matrix.Charpoly.Basic
import Mathlib.LinearAlgebra.Matrix.Charpoly.Coeff
import Mathlib.Analysis.Calculus.MeanValue
import Mathlib.Analysis.Complex.Polynomial.Basic
import Mathlib.Analysis.SpecialFunctions.ExpDeriv
import Mathlib.Analysis.Calculus.Deriv.Prod

/-!
# Motions of a linear system die out iff all eigenvalues have negative real parts
-/

set_option linter.unusedSimpArgs false

namespace BP

open Matrix Set Filter Topology Polynomial

variable {n : ℕ}

/-- One mode driven by something that dies out. -/
theorem decay_step (l : ℂ) (a C : ℝ) (hl : l.re < -a) (y f : ℝ → Fin n → ℂ)
    (hy : ∀ t ≥ 0, HasDerivWithinAt y (l • y t + f t) (Ici 0) t)
    (hf : ∀ t ≥ 0, ‖f t‖ ≤ C * Real.exp (-a * t)) : ∃ D, ∀ t ≥ 0, ‖y t‖ ≤ D * Real.exp (-a * t) := by
  set r := -l.re with hr
  have hra : 0 < r - a := by linarith
  have hC : 0 ≤ C := by
    have := hf 0 le_rfl
    simp at this
    exact le_trans (norm_nonneg _) this
  set z : ℝ → Fin n → ℂ := fun t => Complex.exp (-(l * t)) • y t with hz
  have hE : ∀ t : ℝ, HasDerivAt (fun t : ℝ => Complex.exp (-(l * t))) (-l * Complex.exp (-(l * t))) t := by
    intro t
    have h1 : HasDerivAt (fun t : ℝ => -(l * (t : ℂ))) (-(l * 1)) t :=
      (((hasDerivAt_id t).ofReal_comp).const_mul l).neg
    have := h1.cexp
    refine this.congr_deriv ?_
    ring
  have hzd : ∀ t : ℝ, t ≥ 0 → HasDerivWithinAt z (Complex.exp (-(l * t)) • f t) (Ici 0) t := by
    intro t ht
    have := ((hE t).hasDerivWithinAt (s := Ici 0)).smul (hy t ht)
    refine this.congr_deriv ?_
    ext i
    simp
    ring
  have hnorm : ∀ t : ℝ, ‖Complex.exp (-(l * t))‖ = Real.exp (r * t) := by
    intro t
    rw [Complex.norm_exp]
    congr 1
    simp [hr]
  set B : ℝ → ℝ := fun t => ‖z 0‖ + C / (r - a) * Real.exp ((r - a) * t) with hB
  have hbound : ∀ t : ℝ, t ≥ 0 → ‖z t‖ ≤ B t := by
    intro t ht
    refine image_norm_le_of_norm_deriv_right_le_deriv_boundary (a := 0) (b := t) (f := z)
      (f' := fun s => Complex.exp (-(l * s)) • f s) (B := B) (B' := fun s => C * Real.exp ((r - a) * s))
      ?_ ?_ ?_ ?_ ?_ ⟨ht, le_rfl⟩
    · intro s hs
      exact ((hzd s hs.1).continuousWithinAt).mono Icc_subset_Ici_self
    · intro s hs
      exact (hzd s hs.1).mono (Ici_subset_Ici.2 hs.1)
    · simp only [hB, mul_zero, Real.exp_zero, mul_one]
      have : 0 ≤ C / (r - a) := by positivity
      linarith
    · intro s
      have h1 : HasDerivAt (fun t : ℝ => (r - a) * t) (r - a) s := by
        simpa using (hasDerivAt_id s).const_mul (r - a)
      have := ((h1.exp).const_mul (C / (r - a))).const_add ‖z 0‖
      refine this.congr_deriv ?_
      field_simp
    · intro s hs
      rw [norm_smul, hnorm]
      have h1 := hf s hs.1
      have h2 : Real.exp ((r - a) * s) = Real.exp (r * s) * Real.exp (-a * s) := by
        rw [← Real.exp_add]; congr 1; ring
      rw [h2]
      have := mul_le_mul_of_nonneg_left h1 (Real.exp_pos (r * s)).le
      linarith
  refine ⟨‖z 0‖ + C / (r - a), ?_⟩
  intro t ht
  have hyz : ‖y t‖ = Real.exp (-r * t) * ‖z t‖ := by
    simp only [hz]
    rw [norm_smul, hnorm, ← mul_assoc, ← Real.exp_add]
    simp
  rw [hyz]
  have h1 := hbound t ht
  have h2 : Real.exp (-r * t) * Real.exp ((r - a) * t) = Real.exp (-a * t) := by
    rw [← Real.exp_add]; congr 1; ring
  have h3 : Real.exp (-r * t) ≤ Real.exp (-a * t) := by
    apply Real.exp_le_exp.2; nlinarith
  calc Real.exp (-r * t) * ‖z t‖ ≤ Real.exp (-r * t) * B t := by gcongr
    _ = Real.exp (-r * t) * ‖z 0‖ + C / (r - a) * (Real.exp (-r * t) * Real.exp ((r - a) * t)) := by
      simp only [hB]; ring
    _ ≤ Real.exp (-a * t) * ‖z 0‖ + C / (r - a) * Real.exp (-a * t) := by rw [h2]; gcongr
    _ = _ := by ring

/-- A motion that a product of factors `A - l` annihilates, all with real parts below `-a`, dies out with rate `a`. -/
theorem decay_of_roots (A : Matrix (Fin n) (Fin n) ℂ) (a : ℝ) (ls : List ℂ) :
    (∀ l ∈ ls, l.re < -a) → ∀ y : ℝ → Fin n → ℂ, (∀ t ≥ 0, HasDerivWithinAt y (A *ᵥ y t) (Ici 0) t) →
      (∀ t ≥ 0, (ls.map fun l => A - l • (1 : Matrix (Fin n) (Fin n) ℂ)).prod *ᵥ y t = 0) →
      ∃ C, ∀ t ≥ 0, ‖y t‖ ≤ C * Real.exp (-a * t) := by
  induction ls with
  | nil =>
    intro _ y _ h0
    refine ⟨0, fun t ht => ?_⟩
    have := h0 t ht
    simp at this
    simp [this]
  | cons l ls ih =>
    intro hl y hy h0
    have hcomm : Commute (A - l • (1 : Matrix (Fin n) (Fin n) ℂ))
        ((ls.map fun l => A - l • (1 : Matrix (Fin n) (Fin n) ℂ)).prod) := by
      apply Commute.list_prod_right
      intro x hx
      obtain ⟨m, -, rfl⟩ := List.mem_map.1 hx
      exact ((Commute.refl A).sub_right ((Commute.one_right A).smul_right m)).sub_left
        (((Commute.one_left A).smul_left l).sub_right (((Commute.one_left 1).smul_left l).smul_right m))
    set P := A - l • (1 : Matrix (Fin n) (Fin n) ℂ) with hP
    have hPA : P * A = A * P := by rw [hP]; simp [Matrix.sub_mul, Matrix.mul_sub]
    obtain ⟨C, hC⟩ := ih (fun m hm => hl m (List.mem_cons_of_mem _ hm)) (fun t => P *ᵥ y t) (by
        intro t ht
        have h1 := hy t ht
        have h2 : HasDerivWithinAt (fun t => P *ᵥ y t) (P *ᵥ (A *ᵥ y t)) (Ici 0) t := by
          rw [hasDerivWithinAt_pi] at h1 ⊢
          intro i
          simp only [Matrix.mulVec, dotProduct]
          exact HasDerivWithinAt.fun_sum fun j _ => (h1 j).const_mul (P i j)
        simpa [Matrix.mulVec_mulVec, hPA] using h2) (by
        intro t ht
        have := h0 t ht
        rw [List.map_cons, List.prod_cons, hcomm.eq, ← Matrix.mulVec_mulVec] at this
        exact this)
    refine decay_step l a C (hl l List.mem_cons_self) y (fun t => P *ᵥ y t) ?_ hC
    intro t ht
    have h1 := hy t ht
    refine h1.congr_deriv ?_
    rw [hP]
    simp [Matrix.sub_mulVec, Matrix.smul_mulVec]

theorem exists_rate (ls : List ℂ) (h : ∀ l ∈ ls, l.re < 0) : ∃ a > 0, ∀ l ∈ ls, l.re < -a := by
  induction ls with
  | nil => exact ⟨1, one_pos, by simp⟩
  | cons l ls ih =>
    obtain ⟨a, ha, hls⟩ := ih fun m hm => h m (List.mem_cons_of_mem _ hm)
    have hl := h l List.mem_cons_self
    refine ⟨min a (-l.re / 2), lt_min ha (by linarith), ?_⟩
    intro m hm
    have h1 := min_le_left a (-l.re / 2)
    have h2 := min_le_right a (-l.re / 2)
    rcases List.mem_cons.1 hm with rfl | hm
    · linarith
    · have := hls m hm; linarith

/-- If all eigenvalues have negative real parts, all motions die out with a common rate. -/
theorem decays (A : Matrix (Fin n) (Fin n) ℂ) (h : ∀ l, IsEigenvalue A l → l.re < 0) :
    ∃ a > 0, ∀ y : ℝ → Fin n → ℂ, (∀ t ≥ 0, HasDerivWithinAt y (A *ᵥ y t) (Ici 0) t) →
      ∃ C, ∀ t ≥ 0, ‖y t‖ ≤ C * Real.exp (-a * t) := by
  obtain ⟨a, ha, hls⟩ := exists_rate A.charpoly.roots.toList (by
    intro l hl
    rw [Multiset.mem_toList, Polynomial.mem_roots A.charpoly_monic.ne_zero] at hl
    refine h l ((isEigenvalue_iff_det A l).2 ?_)
    rw [Polynomial.IsRoot, Matrix.eval_charpoly] at hl
    rw [← hl]
    congr 1
    ext i j
    simp [Matrix.scalar_apply, Matrix.one_apply, Matrix.diagonal_apply])
  refine ⟨a, ha, fun y hy => decay_of_roots A a _ hls y hy ?_⟩
  intro t _
  have hprod : (A.charpoly.roots.toList.map fun l => A - l • (1 : Matrix (Fin n) (Fin n) ℂ)).prod = 0 := by
    have h1 := Matrix.aeval_self_charpoly A
    rw [(IsAlgClosed.splits A.charpoly).eq_prod_roots_of_monic A.charpoly_monic] at h1
    have h2 : A.charpoly.roots = (A.charpoly.roots.toList : Multiset ℂ) := (Multiset.coe_toList _).symm
    rw [h2, Multiset.map_coe, Multiset.prod_coe, map_list_prod, List.map_map] at h1
    rw [← h1]
    congr 1
    refine List.map_congr_left fun l _ => ?_
    simp [Algebra.algebraMap_eq_smul_one]
  rw [hprod, Matrix.zero_mulVec]

/-- The motion of an eigenvector. -/
theorem mode_is_motion (A : Matrix (Fin n) (Fin n) ℂ) (l : ℂ) (x : Fin n → ℂ) (h : A *ᵥ x = l • x) (t : ℝ) :
    HasDerivAt (fun t : ℝ => Complex.exp (l * t) • x) (A *ᵥ (Complex.exp (l * t) • x)) t := by
  have h1 : HasDerivAt (fun t : ℝ => l * (t : ℂ)) (l * 1) t := ((hasDerivAt_id t).ofReal_comp).const_mul l
  refine (h1.cexp.smul_const x).congr_deriv ?_
  rw [Matrix.mulVec_smul, h, smul_smul, mul_one]

/-- Complex motions of a real system have real motions as real and imaginary parts. -/
theorem motion_parts (A : Matrix (Fin n) (Fin n) ℝ) (y : ℝ → Fin n → ℂ) (t : ℝ)
    (h : HasDerivAt y (toC A *ᵥ y t) t) :
    HasDerivAt (fun t i => (y t i).re) (A *ᵥ fun i => (y t i).re) t ∧
      HasDerivAt (fun t i => (y t i).im) (A *ᵥ fun i => (y t i).im) t := by
  rw [hasDerivAt_pi] at h
  constructor
  · rw [hasDerivAt_pi]
    intro i
    have h1 := (Complex.reCLM.hasFDerivAt.comp_hasDerivAt t (h i))
    refine h1.congr_deriv ?_
    simp [toC, Matrix.mulVec, dotProduct, Complex.re_sum]
  · rw [hasDerivAt_pi]
    intro i
    have h1 := (Complex.imCLM.hasFDerivAt.comp_hasDerivAt t (h i))
    refine h1.congr_deriv ?_
    simp [toC, Matrix.mulVec, dotProduct, Complex.im_sum]

/-- A real motion as a complex one. -/
theorem motion_toC (A : Matrix (Fin n) (Fin n) ℝ) (x : ℝ → Fin n → ℝ) (t : ℝ) (s : Set ℝ)
    (h : HasDerivWithinAt x (A *ᵥ x t) s t) :
    HasDerivWithinAt (fun t i => (x t i : ℂ)) (toC A *ᵥ fun i => (x t i : ℂ)) s t := by
  rw [hasDerivWithinAt_pi] at h ⊢
  intro i
  refine ((h i).ofReal_comp).congr_deriv ?_
  simp [toC, Matrix.mulVec, dotProduct]

end BP
