import Verif.Props.Dynamics
import Mathlib.LinearAlgebra.Matrix.DotProduct

/-!
# Motions with any speeds through a place
-/

set_option linter.unusedSimpArgs false

namespace BP.EL

open BP.Spec Matrix

/-- The conditions for rolling depend on the place only. -/
theorem same_place {m m' : ℕ → ℝ} (heq : Agrees m) (heq' : Agrees m') (h : 0 < m 35)
    (q : ∀ l ∈ [5033, 5034, 5035, 5037, 5049, 5050, 5051, 5082, 5083], m' l = m l) :
    m' 35 = m 35 ∧ m' 494 = m 494 := by
  have E := rollEqs heq
  have E' := rollEqs heq'
  have V := rollVals heq
  have V' := rollVals heq'
  obtain ⟨t3, t4, t5, t6, t9, t10⟩ := roll_trig heq
  obtain ⟨s3, s4, s5, s6, s9, s10⟩ := roll_trig heq'
  have a3 : m' 3 = m 3 := by rw [t3, s3, q 5034 (by simp)]
  have a4 : m' 4 = m 4 := by rw [t4, s4, q 5034 (by simp)]
  have a5 : m' 5 = m 5 := by rw [t5, s5, q 5035 (by simp)]
  have a6 : m' 6 = m 6 := by rw [t6, s6, q 5035 (by simp)]
  have a9 : m' 9 = m 9 := by rw [t9, s9, q 5037 (by simp)]
  have a10 : m' 10 = m 10 := by rw [t10, s10, q 5037 (by simp)]
  have a33 : m' 33 = m 33 := by rw [V.v33, V'.v33, a3, a4, a6, a9, a10]
  have a34 : m' 34 = m 34 := by rw [V.v34, V'.v34, a3, a5]
  have a35 : m' 35 = m 35 := by rw [E.e35, E'.e35, a33, a34]
  have a36 : m' 36 = m 36 := by rw [E.e36, E'.e36, a35]
  have a39 : m' 39 = m 39 := by rw [E.e39, E'.e39, E.e37, E'.e37, a33, a36, q 5082 (by simp)]
  have a40 : m' 40 = m 40 := by rw [E.e40, E'.e40, E.e38, E'.e38, a34, a36, q 5082 (by simp)]
  refine ⟨a35, ?_⟩
  have key : ∀ {m : ℕ → ℝ}, Agrees m → m 494 = -(m 476 * m 480) := by
    intro m heq
    have E := rollEqs heq
    have V := rollVals heq
    have pyth : m 1 * m 1 + m 2 * m 2 = 1 := by
      rw [V.v1, V.v2]; linear_combination Real.sin_sq_add_cos_sq (m 5033)
    have e487 : m 487 = 0 := by rw [E.e487, V.v458, V.v228]; ring
    have e482 : m 482 = 0 := by rw [E.e482, V.v458, V.v228]; ring
    have e478 : m 478 = 1 := by rw [E.e478, V.v457, V.v456, ← pyth]; ring
    rw [E.e494, e482, e478, e487]; ring
  have g := (roll_height heq h).2.1
  have g' := (roll_height heq' (by rw [a35]; exact h)).2.1
  rw [key heq, key heq', g, g', E.e480, E'.e480, V.v463, V'.v463, V.v466, V'.v466, V.v470, V'.v470, V.v473, V'.v473,
    a3, a4, a5, a6, a9, a10, a39, a40, q 5049 (by simp), q 5050 (by simp), q 5051 (by simp), q 5083 (by simp)]

theorem about_zero {θ ψ : ℝ} {v : Fin 3 → ℝ} (h : aboutZ θ (aboutX ψ v) = 0) : v = 0 := by
  have d : v ⬝ᵥ v = 0 := by
    have e1 := about_dot .Z θ (aboutX ψ v) (aboutX ψ v)
    have e2 := about_dot .X ψ v v
    simp only [about] at e1 e2
    rw [← e2, ← e1, h]
    simp
  exact dotProduct_self_eq_zero.mp d

/-- The rear wheel rolls. -/
theorem rear_rest {rr : ℝ} {y : ℝ → Fin 13 → ℝ} {y' : Fin 13 → ℝ} {t : ℝ} (hy : HasDerivAt y y' t)
    (r1 : Real.cos (y t 2) * y' 0 + Real.sin (y t 2) * y' 1 + rr * (y' 4 + y' 5) = 0)
    (r2 : Real.cos (y t 2) * y' 1 - Real.sin (y t 2) * y' 0 = 0) (φ : ℝ)
    (touch : rearPoint rr (y t) φ = ![y t 0, y t 1, 0]) : HasDerivAt (fun s => rearPoint rr (y s) φ) 0 t := by
  have hyi := hasDerivAt_pi.mp hy
  have form : ∀ s, rearPoint rr (y s) φ = onBicycle (y s) (![0, 0, -rr] + rim rr (φ + y s 5 + y s 4)) :=
    fun s => by rw [rearPoint, aboutY_rim, aboutY_rim]
  have v0 : (![0, 0, -rr] + rim rr (φ + y t 5 + y t 4) : Fin 3 → ℝ) = 0 := by
    rw [form, onBicycle, add_eq_left] at touch
    exact about_zero touch
  have hs := congrFun v0 0
  have hc := congrFun v0 2
  simp [rim] at hs hc
  have hs : rr * Real.sin (φ + y t 5 + y t 4) = 0 := by rcases hs with h | h <;> rw [h] <;> simp
  rw [show (fun s => rearPoint rr (y s) φ) = fun s => onBicycle (y s)
      (![0, 0, -rr] + rim rr (φ + y s 5 + y s 4)) from funext form]
  have hα : HasDerivAt (fun s => φ + y s 5 + y s 4) (y' 5 + y' 4) t := ((hyi 5).const_add φ).add (hyi 4)
  have hv : HasDerivAt (fun s => (![0, 0, -rr] + rim rr (φ + y s 5 + y s 4) : Fin 3 → ℝ))
      ![rr * (y' 5 + y' 4), 0, 0] t := by
    refine hasDerivAt_vec3 ?_ ?_ ?_
    · refine ((hα.sin.const_mul rr).const_add 0).congr_deriv ?_
      simp only [Matrix.cons_val]
      linear_combination (y' 5 + y' 4) * hc
    · exact ((hasDerivAt_const t (0 : ℝ)).const_add 0).congr_deriv (by simp)
    · refine ((hα.cos.const_mul rr).const_add (-rr)).congr_deriv ?_
      simp only [Matrix.cons_val]
      linear_combination (-(y' 5 + y' 4)) * hs
  refine (onBicycle_deriv hy hv).congr_deriv ?_
  rw [v0]
  have pyth := Real.sin_sq_add_cos_sq (y t 2)
  funext i
  fin_cases i
  · simp [aboutZ, aboutX]
    linear_combination Real.cos (y t 2) * r1 - Real.sin (y t 2) * r2 - y' 0 * pyth
  · simp [aboutZ, aboutX]
    linear_combination Real.sin (y t 2) * r1 + Real.cos (y t 2) * r2 - y' 1 * pyth
  · simp [aboutZ, aboutX]

/-- A state at the same place with other speeds. -/
def atPlace (x : Fin 13 → ℝ) (w4 w6 w7 w9 : ℝ) : Fin 13 → ℝ :=
  ![x 0, x 1, x 2, x 3, x 4, x 5, x 6, x 7, x 8, w4, w6, w7, w9]

theorem atPlace_same (x : Fin 13 → ℝ) (w4 w6 w7 w9 : ℝ) (i : Fin 13) (h : i.1 < 9) : atPlace x w4 w6 w7 w9 i = x i := by
  fin_cases i <;> first | rfl | (exfalso; revert h; decide)

attribute [local irreducible] rates cellsAt evalLinear

/-- Through every place there are rolling motions with all speeds. -/
theorem motion_exists (lam : ℝ) (junk : ℕ → ℝ) (f : String → ℝ) (x : Fin 13 → ℝ) (r : Fin 4 → ℝ) (t : ℝ)
    (h35 : 0 < cellsAt lam junk (slotVector f) x r 35) (h494 : cellsAt lam junk (slotVector f) x r 494 ≠ 0)
    (hrf : 0 < f "rf") (w4 w6 w7 w9 : ℝ) :
    ∃ (y : ℝ → Fin 13 → ℝ) (y' : Fin 13 → ℝ), HasDerivAt y y' t ∧ (∀ i : Fin 13, i.1 < 9 → y t i = x i) ∧
      RollsAt f y t ∧ y' 3 = w4 ∧ y' 5 = w6 ∧ y' 6 = w7 ∧ y' 8 = w9 := by
  obtain ⟨X, hX⟩ : ∃ X, X = atPlace x w4 w6 w7 w9 := ⟨_, rfl⟩
  have sX : ∀ i : Fin 13, i.1 < 9 → X i = x i := fun i hi => by rw [hX]; exact atPlace_same x w4 w6 w7 w9 i hi
  obtain ⟨v, hv⟩ : ∃ v, v = rates lam junk (slotVector f) X r := ⟨_, rfl⟩
  obtain ⟨s35, s494⟩ := same_place (m' := cellsAt lam junk (slotVector f) X r)
    (cellsAt_equation lam junk (slotVector f) x r) (cellsAt_equation lam junk (slotVector f) X r) h35 (by
      obtain ⟨⟨a2, a3, a4, a6⟩, c1, c2, c3, c34, c35⟩ := arg_cells lam junk (slotVector f) x r
      obtain ⟨⟨b2, b3, b4, b6⟩, d1, d2, d3, d34, d35⟩ := arg_cells lam junk (slotVector f) X r
      intro l hl
      simp only [List.mem_cons, List.not_mem_nil, or_false] at hl
      rcases hl with rfl | rfl | rfl | rfl | rfl | rfl | rfl | rfl | rfl
      · exact b2.trans ((sX 2 (by decide)).trans a2.symm)
      · exact b3.trans ((sX 3 (by decide)).trans a3.symm)
      · exact b4.trans ((sX 4 (by decide)).trans a4.symm)
      · exact b6.trans ((sX 6 (by decide)).trans a6.symm)
      · exact d1.trans c1.symm
      · exact d2.trans c2.symm
      · exact d3.trans c3.symm
      · exact d34.trans c34.symm
      · exact d35.trans c35.symm)
  have n494 : cellsAt lam junk (slotVector f) X r 494 ≠ 0 := by rw [s494]; exact h494
  have n35 : 0 < cellsAt lam junk (slotVector f) X r 35 := by rw [s35]; exact h35
  obtain ⟨y, hy⟩ : ∃ y : ℝ → Fin 13 → ℝ, y = fun s => X + (s - t) • v := ⟨_, rfl⟩
  have yt : y t = X := by rw [hy]; simp
  have dy : HasDerivAt y v t := by
    rw [hy]
    exact (((hasDerivAt_id t).sub_const t).smul_const v).const_add X |>.congr_deriv (by simp)
  have dy' : HasDerivAt y (rates lam junk (slotVector f) (y t) r) t := by rw [yt, ← hv]; exact dy
  obtain ⟨r1, r2, -⟩ := roll_solved (cellsAt_equation lam junk (slotVector f) X r) n494
  obtain ⟨a0, a1, a2, a3, a4, a5, -⟩ := rate_cells lam junk (slotVector f) X r
  obtain ⟨⟨b2, -⟩, -, -, -, -, c35⟩ := arg_cells lam junk (slotVector f) X r
  have V := rollVals (cellsAt_equation lam junk (slotVector f) X r)
  have v1 := V.v1
  have v2 := V.v2
  rw [b2] at v1 v2
  rw [v1, v2, c35, ← a0, ← a1, ← a4, ← a5, ← hv] at r1
  rw [v1, v2, ← a0, ← a1, ← hv] at r2
  rw [← yt] at r1 r2
  have g := rate_speeds lam junk X r (slotVector f)
  rw [← hv, hX] at g
  refine ⟨y, v, dy, fun i hi => by rw [yt]; exact sX i hi, ⟨?_, ?_⟩, g.1, g.2.1, g.2.2.1, g.2.2.2⟩
  · exact fun φ hφ => rear_rest dy r1 r2 φ hφ
  · exact fun φ hφ => front_rolls_of lam junk (slotVector f) y r t dy' (by rw [yt]; exact n35) (by rw [yt]; exact n494)
      hrf φ hφ

end BP.EL
