import Verif.Lemmas.Rolling
import Verif.Spec.Rolling
import Mathlib.Analysis.Calculus.Deriv.MeanValue

/-!
# C130: the wheels roll without slipping, and the front wheel stays on the ground
-/

set_option linter.unusedSimpArgs false

namespace BP.EL

open BP.Spec Matrix

/-! ## Velocities -/

theorem hasDerivAt_vec3 {f : ℝ → Fin 3 → ℝ} {f' : Fin 3 → ℝ} {t : ℝ} (h0 : HasDerivAt (fun s => f s 0) (f' 0) t)
    (h1 : HasDerivAt (fun s => f s 1) (f' 1) t) (h2 : HasDerivAt (fun s => f s 2) (f' 2) t) : HasDerivAt f f' t := by
  rw [hasDerivAt_pi]
  intro i
  fin_cases i
  exacts [h0, h1, h2]

section

variable {θ : ℝ → ℝ} {θ' : ℝ} {v : ℝ → Fin 3 → ℝ} {v' : Fin 3 → ℝ} {t : ℝ}

theorem aboutX_deriv (hθ : HasDerivAt θ θ' t) (hv : HasDerivAt v v' t) :
    HasDerivAt (fun s => aboutX (θ s) (v s)) (aboutX (θ t) (v' + θ' • ![0, -v t 2, v t 1])) t := by
  have h := hasDerivAt_pi.mp hv
  refine hasDerivAt_vec3 ?_ ?_ ?_
  · exact (h 0).congr_deriv (by simp [aboutX])
  · exact ((hθ.cos.mul (h 1)).sub (hθ.sin.mul (h 2))).congr_deriv (by simp [aboutX]; ring)
  · exact ((hθ.sin.mul (h 1)).add (hθ.cos.mul (h 2))).congr_deriv (by simp [aboutX]; ring)

theorem aboutY_deriv (hθ : HasDerivAt θ θ' t) (hv : HasDerivAt v v' t) :
    HasDerivAt (fun s => aboutY (θ s) (v s)) (aboutY (θ t) (v' + θ' • ![v t 2, 0, -v t 0])) t := by
  have h := hasDerivAt_pi.mp hv
  refine hasDerivAt_vec3 ?_ ?_ ?_
  · exact ((hθ.cos.mul (h 0)).add (hθ.sin.mul (h 2))).congr_deriv (by simp [aboutY]; ring)
  · exact (h 1).congr_deriv (by simp [aboutY])
  · exact ((hθ.cos.mul (h 2)).sub (hθ.sin.mul (h 0))).congr_deriv (by simp [aboutY]; ring)

theorem aboutZ_deriv (hθ : HasDerivAt θ θ' t) (hv : HasDerivAt v v' t) :
    HasDerivAt (fun s => aboutZ (θ s) (v s)) (aboutZ (θ t) (v' + θ' • ![-v t 1, v t 0, 0])) t := by
  have h := hasDerivAt_pi.mp hv
  refine hasDerivAt_vec3 ?_ ?_ ?_
  · exact ((hθ.cos.mul (h 0)).sub (hθ.sin.mul (h 1))).congr_deriv (by simp [aboutZ]; ring)
  · exact ((hθ.sin.mul (h 0)).add (hθ.cos.mul (h 1))).congr_deriv (by simp [aboutZ]; ring)
  · exact (h 2).congr_deriv (by simp [aboutZ])

end

theorem aboutY_rim (θ radius φ : ℝ) : aboutY θ (rim radius φ) = rim radius (φ + θ) := by
  funext i
  fin_cases i <;> simp [aboutY, rim, Real.sin_add, Real.cos_add] <;> ring

theorem onBicycle_deriv {x : ℝ → Fin 13 → ℝ} {x' : Fin 13 → ℝ} {v : ℝ → Fin 3 → ℝ} {v' : Fin 3 → ℝ} {t : ℝ}
    (hx : HasDerivAt x x' t) (hv : HasDerivAt v v' t) :
    HasDerivAt (fun s => onBicycle (x s) (v s)) (![x' 0, x' 1, 0] + aboutZ (x t 2)
      (aboutX (x t 3) (v' + x' 3 • ![0, -v t 2, v t 1]) +
        x' 2 • ![-aboutX (x t 3) (v t) 1, aboutX (x t 3) (v t) 0, 0])) t := by
  have h := hasDerivAt_pi.mp hx
  have e : HasDerivAt (fun s => (![x s 0, x s 1, 0] : Fin 3 → ℝ)) ![x' 0, x' 1, 0] t := by
    refine hasDerivAt_vec3 ?_ ?_ ?_
    · exact h 0
    · exact h 1
    · exact hasDerivAt_const t (0 : ℝ)
  exact e.add (aboutZ_deriv (h 2) (aboutX_deriv (h 3) hv))

/-! ## The rates -/

/-- Rates of a state and cells. -/
theorem rate_cells (lam : ℝ) (junk : ℕ → ℝ) (p : Fin 36 → ℝ) (x : Fin 13 → ℝ) (r : Fin 4 → ℝ) :
    let m := cellsAt lam junk p x r
    let x' := rates lam junk p x r
    x' 0 = m 5085 ∧ x' 1 = m 5087 ∧ x' 2 = m 5089 ∧ x' 3 = m 5091 ∧ x' 4 = m 5092 ∧ x' 5 = m 5094 ∧ x' 6 = m 5095 ∧
      x' 7 = m 5096 := by
  have E := rollEqs (cellsAt_equation lam junk p x r)
  exact ⟨(rates_eq lam junk p x r 0).trans E.e5086, (rates_eq lam junk p x r 1).trans E.e5088,
    (rates_eq lam junk p x r 2).trans E.e5090, rates_eq lam junk p x r 3, (rates_eq lam junk p x r 4).trans E.e5093,
    rates_eq lam junk p x r 5, rates_eq lam junk p x r 6, (rates_eq lam junk p x r 7).trans E.e5097⟩

/-- Arguments in cells. -/
theorem arg_cells (lam : ℝ) (junk : ℕ → ℝ) (p : Fin 36 → ℝ) (x : Fin 13 → ℝ) (r : Fin 4 → ℝ) :
    let m := cellsAt lam junk p x r
    (m 5033 = x 2 ∧ m 5034 = x 3 ∧ m 5035 = x 4 ∧ m 5037 = x 6) ∧
    m 5049 = p 1 ∧ m 5050 = p 2 ∧ m 5051 = p 3 ∧ m 5082 = p 34 ∧ m 5083 = p 35 := by
  have k : ∀ i : Fin 36, cellsAt lam junk p x r (5048 + i) = p i := fun i => by
    rw [cellsAt_keep _ _ _ _ _ _ ((inputs_iff _).mpr ⟨by omega, by omega⟩), start_p]
  exact ⟨⟨cellsAt_angle lam junk p x r 2 (by norm_num), cellsAt_angle lam junk p x r 3 (by norm_num),
    cellsAt_angle lam junk p x r 4 (by norm_num), cellsAt_angle lam junk p x r 6 (by norm_num)⟩,
    k 1, k 2, k 3, k 34, k 35⟩

attribute [local irreducible] rates cellsAt evalLinear

/-- The rear wheel rolls if its conditions can be solved. -/
theorem rear_rolls_of (lam : ℝ) (junk : ℕ → ℝ) (p : Fin 36 → ℝ) (x : ℝ → Fin 13 → ℝ) (r : Fin 4 → ℝ) (t : ℝ)
    (hx : HasDerivAt x (rates lam junk p (x t) r) t)
    (h494 : cellsAt lam junk p (x t) r 494 ≠ 0)
    (hr : p 35 ≠ 0) (hroll : Real.cos (x t 3) ≠ 0)
    (φ : ℝ) (touch : rearPoint (p 35) (x t) φ 2 = 0) :
    rearPoint (p 35) (x t) φ = ![x t 0, x t 1, 0] ∧ HasDerivAt (fun s => rearPoint (p 35) (x s) φ) 0 t := by
  obtain ⟨r1, r2, -⟩ := roll_solved (cellsAt_equation lam junk p (x t) r) h494
  obtain ⟨a0, a1, a2, a3, a4, a5, -⟩ := rate_cells lam junk p (x t) r
  obtain ⟨⟨b2, -⟩, -, -, -, -, c35⟩ := arg_cells lam junk p (x t) r
  have V := rollVals (cellsAt_equation lam junk p (x t) r)
  have v1 := V.v1
  have v2 := V.v2
  rw [b2] at v1 v2
  rw [v1, v2, c35, ← a0, ← a1, ← a4, ← a5] at r1
  rw [v1, v2, ← a0, ← a1] at r2
  obtain ⟨x', ex⟩ : ∃ x', x' = rates lam junk p (x t) r := ⟨_, rfl⟩
  rw [← ex] at hx r1 r2
  have hxi := hasDerivAt_pi.mp hx
  have form : ∀ s, rearPoint (p 35) (x s) φ = onBicycle (x s) (![0, 0, -p 35] + rim (p 35) (φ + x s 5 + x s 4)) :=
    fun s => by rw [rearPoint, aboutY_rim, aboutY_rim]
  have hc : Real.cos (φ + x t 5 + x t 4) = 1 := by
    rw [form] at touch
    simp only [onBicycle, aboutZ, aboutX, rim, Pi.add_apply, Matrix.cons_val] at touch
    have e : Real.cos (x t 3) * (p 35 * (Real.cos (φ + x t 5 + x t 4) - 1)) = 0 := by linear_combination touch
    rcases mul_eq_zero.mp e with e | e
    · exact absurd e hroll
    rcases mul_eq_zero.mp e with e | e
    · exact absurd e hr
    linarith
  have hs : Real.sin (φ + x t 5 + x t 4) = 0 := by
    have := Real.sin_sq_add_cos_sq (φ + x t 5 + x t 4)
    rw [hc] at this
    exact pow_eq_zero_iff (two_ne_zero) |>.mp (by linarith)
  have v0 : (![0, 0, -p 35] + rim (p 35) (φ + x t 5 + x t 4) : Fin 3 → ℝ) = 0 := by
    funext i
    fin_cases i <;> simp [rim, hc, hs]
  refine ⟨?_, ?_⟩
  · rw [form, v0, onBicycle]
    funext i
    fin_cases i <;> simp [aboutZ, aboutX]
  · rw [show (fun s => rearPoint (p 35) (x s) φ) = fun s => onBicycle (x s)
      (![0, 0, -p 35] + rim (p 35) (φ + x s 5 + x s 4)) from funext form]
    have hα : HasDerivAt (fun s => φ + x s 5 + x s 4) (x' 5 + x' 4) t :=
      ((hxi 5).const_add φ).add (hxi 4)
    have hv : HasDerivAt (fun s => (![0, 0, -p 35] + rim (p 35) (φ + x s 5 + x s 4) : Fin 3 → ℝ))
        ![p 35 * (x' 5 + x' 4), 0, 0] t := by
      refine hasDerivAt_vec3 ?_ ?_ ?_
      · exact ((hα.sin.const_mul (p 35)).const_add 0).congr_deriv (by simp [hc])
      · exact ((hasDerivAt_const t (0 : ℝ)).const_add 0).congr_deriv (by simp)
      · exact ((hα.cos.const_mul (p 35)).const_add (-p 35)).congr_deriv (by simp [hs])
    refine (onBicycle_deriv hx hv).congr_deriv ?_
    rw [v0]
    have pyth := Real.sin_sq_add_cos_sq (x t 2)
    funext i
    fin_cases i
    · simp [aboutZ, aboutX]
      linear_combination Real.cos (x t 2) * r1 - Real.sin (x t 2) * r2 - x' 0 * pyth
    · simp [aboutZ, aboutX]
      linear_combination Real.sin (x t 2) * r1 + Real.cos (x t 2) * r2 - x' 1 * pyth
    · simp [aboutZ, aboutX]

/-- **C130.** The rear wheel rolls without slipping: the point of its rim that touches the ground is at rest, and it
is where the state says the contact point is. -/
theorem C130_rear_rolls (lam : ℝ) (junk : ℕ → ℝ) (p : Fin 36 → ℝ) (x : ℝ → Fin 13 → ℝ) (r : Fin 4 → ℝ) (t : ℝ)
    (hx : HasDerivAt x (rates lam junk p (x t) r) t)
    (hdef : ∀ s ∈ body, s.2.Safe (cellsAt lam junk p (x t) r))
    (hr : p 35 ≠ 0) (hroll : Real.cos (x t 3) ≠ 0)
    (φ : ℝ) (touch : rearPoint (p 35) (x t) φ 2 = 0) :
    rearPoint (p 35) (x t) φ = ![x t 0, x t 1, 0] ∧ HasDerivAt (fun s => rearPoint (p 35) (x s) φ) 0 t :=
  rear_rolls_of lam junk p x r t hx ((C126_defined lam junk p (x t) r).mp hdef).2.1 hr hroll φ touch

/-! ## The front wheel -/

/-- An angle with the given direction. -/
theorem angle_of {a b w : ℝ} (hw : 0 < w) (h : w * w = a * a + b * b) : ∃ β, w * Real.sin β = a ∧ w * Real.cos β = b := by
  have n : ‖(⟨b, a⟩ : ℂ)‖ = w := by
    rw [Complex.norm_def, Complex.normSq_mk, add_comm, ← h, Real.sqrt_mul_self hw.le]
  refine ⟨Complex.arg ⟨b, a⟩, ?_, ?_⟩
  · have := Complex.norm_mul_sin_arg (⟨b, a⟩ : ℂ)
    rwa [n] at this
  · have := Complex.norm_mul_cos_arg (⟨b, a⟩ : ℂ)
    rwa [n] at this

theorem highest_angle {a b w α : ℝ} (hw : 0 < w) (h : w * w = a * a + b * b) :
    (∀ β, a * Real.sin β + b * Real.cos β ≤ a * Real.sin α + b * Real.cos α) ↔
      w * Real.sin α = a ∧ w * Real.cos α = b := by
  have p := Real.sin_sq_add_cos_sq α
  constructor
  · intro hm
    obtain ⟨β, h1, h2⟩ := angle_of hw h
    have hb := hm β
    have e : w * (a * Real.sin β + b * Real.cos β) = w * w := by linear_combination a * h1 + b * h2 - h
    have e' : a * Real.sin β + b * Real.cos β = w := mul_left_cancel₀ hw.ne' e
    rw [e'] at hb
    have sq : (a - w * Real.sin α) ^ 2 + (b - w * Real.cos α) ^ 2 ≤ 0 := by
      have : (a - w * Real.sin α) ^ 2 + (b - w * Real.cos α) ^ 2 =
          2 * w * (w - (a * Real.sin α + b * Real.cos α)) := by
        linear_combination (w ^ 2) * p - h
      rw [this]
      nlinarith
    have s1 : (a - w * Real.sin α) ^ 2 = 0 := by nlinarith [sq_nonneg (a - w * Real.sin α), sq_nonneg (b - w * Real.cos α)]
    have s2 : (b - w * Real.cos α) ^ 2 = 0 := by nlinarith [sq_nonneg (a - w * Real.sin α), sq_nonneg (b - w * Real.cos α)]
    have t1 := pow_eq_zero_iff (two_ne_zero) |>.mp s1
    have t2 := pow_eq_zero_iff (two_ne_zero) |>.mp s2
    exact ⟨by linarith, by linarith⟩
  · rintro ⟨rfl, rfl⟩ β
    have : Real.sin α * Real.sin β + Real.cos α * Real.cos β ≤ 1 := by
      have := Real.cos_le_one (α - β)
      rw [Real.cos_sub] at this
      linarith
    nlinarith

theorem front_form (rr rf d1 d2 d3 : ℝ) (x : Fin 13 → ℝ) (φ : ℝ) :
    frontPoint rr rf d1 d2 d3 x φ = onBicycle x (![0, 0, -rr] +
      aboutY (x 4) (![d1, 0, 0] + aboutZ (x 6) (![d3, 0, d2] + rim rf (φ + x 7)))) := by
  rw [frontPoint, aboutY_rim]

theorem front_height (rr rf d1 d2 d3 : ℝ) (x : Fin 13 → ℝ) (φ : ℝ) :
    frontPoint rr rf d1 d2 d3 x φ 2 = frontPoint rr 0 d1 d2 d3 x 0 2 + rf *
      ((Real.sin (x 3) * Real.sin (x 6) - Real.cos (x 3) * Real.sin (x 4) * Real.cos (x 6)) * Real.sin (φ + x 7) +
        Real.cos (x 3) * Real.cos (x 4) * Real.cos (φ + x 7)) := by
  rw [front_form, front_form]
  simp [onBicycle, aboutX, aboutY, aboutZ, rim]
  ring

/-- The lowest point in cells. -/
theorem lowest_cells (lam : ℝ) (junk : ℕ → ℝ) (p : Fin 36 → ℝ) (x : Fin 13 → ℝ) (r : Fin 4 → ℝ)
    (h35 : 0 < cellsAt lam junk p x r 35) (hrf : 0 < p 34) (φ : ℝ) :
    Lowest (p 35) (p 34) (p 1) (p 2) (p 3) x φ ↔
      cellsAt lam junk p x r 36 * Real.sin (φ + x 7) = cellsAt lam junk p x r 33 ∧
      cellsAt lam junk p x r 36 * Real.cos (φ + x 7) = cellsAt lam junk p x r 34 := by
  have heq := cellsAt_equation lam junk p x r
  obtain ⟨hw, h⟩ := roll_root heq h35
  rw [← highest_angle hw h]
  have V := rollVals heq
  obtain ⟨t3, t4, t5, t6, t9, t10⟩ := roll_trig heq
  obtain ⟨⟨-, b3, b4, b6⟩, -⟩ := arg_cells lam junk p x r
  rw [V.v33, V.v34, t3, t4, t5, t6, t9, t10, b3, b4, b6]
  unfold Lowest
  constructor
  · intro hm β
    have := hm (β - x 7)
    rw [front_height, front_height _ _ _ _ _ _ φ, sub_add_cancel] at this
    nlinarith
  · intro hm ψ
    rw [front_height, front_height _ _ _ _ _ _ φ]
    have := hm (ψ + x 7)
    nlinarith

/-- The front wheel rolls if its conditions can be solved. -/
theorem front_rolls_of (lam : ℝ) (junk : ℕ → ℝ) (p : Fin 36 → ℝ) (x : ℝ → Fin 13 → ℝ) (r : Fin 4 → ℝ) (t : ℝ)
    (hx : HasDerivAt x (rates lam junk p (x t) r) t)
    (h35 : 0 < cellsAt lam junk p (x t) r 35) (h494 : cellsAt lam junk p (x t) r 494 ≠ 0) (hrf : 0 < p 34)
    (φ : ℝ) (low : Lowest (p 35) (p 34) (p 1) (p 2) (p 3) (x t) φ) :
    HasDerivAt (fun s => frontPoint (p 35) (p 34) (p 1) (p 2) (p 3) (x s) φ) 0 t := by
  have heq := cellsAt_equation lam junk p (x t) r
  rw [lowest_cells lam junk p (x t) r h35 hrf] at low
  obtain ⟨-, -, r3, r4, r5⟩ := roll_solved heq h494
  obtain ⟨g5, g6, g7⟩ := roll_height heq h35
  obtain ⟨l1, l2, l3⟩ := roll_lowest heq h35
  obtain ⟨hw, -⟩ := roll_root heq h35
  obtain ⟨t3, t4, t5, t6, t9, t10⟩ := roll_trig heq
  obtain ⟨a0, a1, a2, a3, a4, a5, a6, a7⟩ := rate_cells lam junk p (x t) r
  obtain ⟨⟨b2, b3, b4, b6⟩, c1, c2, c3, c34, c35⟩ := arg_cells lam junk p (x t) r
  have V := rollVals heq
  have v1 := V.v1
  have v2 := V.v2
  rw [b2] at v1 v2
  have e39 : cellsAt lam junk p (x t) r 39 = p 34 * Real.sin (φ + x t 7) := by
    refine mul_right_cancel₀ hw.ne' ?_
    rw [l1, c34]; linear_combination (-p 34) * low.1
  have e40 : cellsAt lam junk p (x t) r 40 = p 34 * Real.cos (φ + x t 7) := by
    refine mul_right_cancel₀ hw.ne' ?_
    rw [l2, c34]; linear_combination (-p 34) * low.2
  rw [V.v463, V.v464, V.v466, V.v467, ← a0, ← a1, ← a2, ← a4, ← a6, ← a7] at r3
  rw [V.v470, V.v471, V.v472, V.v473, V.v474, ← a0, ← a1, ← a2, ← a3, ← a4, ← a6, ← a7] at r4
  rw [g5, g6, g7, ← a3, ← a4, ← a6] at r5
  rw [v1, v2, t3, t4, t5, t6, t9, t10, e39, e40, b3, b4, b6, c1, c2, c3, c35] at r3 r4
  rw [t3, t4, t5, t6, t9, t10, e39, e40, b3, b4, b6, c1, c2, c3, c35] at r5
  rw [t3, t4, t5, t6, t9, t10, e39, e40, b3, b4, b6] at l3
  obtain ⟨x', ex⟩ : ∃ x', x' = rates lam junk p (x t) r := ⟨_, rfl⟩
  rw [← ex] at hx r3 r4 r5
  clear a0 a1 a2 a3 a4 a5 a6 a7 t3 t4 t5 t6 t9 t10 e39 e40 g5 g6 g7 l1 l2 V heq low v1 v2 b2 b3 b4 b6 c1 c2 c3 c34 c35
  have hxi := hasDerivAt_pi.mp hx
  rw [show (fun s => frontPoint (p 35) (p 34) (p 1) (p 2) (p 3) (x s) φ) = fun s => onBicycle (x s) (![0, 0, -p 35] +
      aboutY (x s 4) (![p 1, 0, 0] + aboutZ (x s 6) (![p 3, 0, p 2] + rim (p 34) (φ + x s 7))))
    from funext fun s => front_form ..]
  have hα : HasDerivAt (fun s => φ + x s 7) (x' 7) t := (hxi 7).const_add φ
  have hk : HasDerivAt (fun s => (![p 3, 0, p 2] + rim (p 34) (φ + x s 7) : Fin 3 → ℝ))
      ![p 34 * (Real.cos (φ + x t 7) * x' 7), 0, p 34 * (-Real.sin (φ + x t 7) * x' 7)] t := by
    refine hasDerivAt_vec3 ?_ ?_ ?_
    · exact ((hα.sin.const_mul (p 34)).const_add (p 3)).congr_deriv (by simp)
    · exact ((hasDerivAt_const t (0 : ℝ)).const_add 0).congr_deriv (by simp)
    · exact ((hα.cos.const_mul (p 34)).const_add (p 2)).congr_deriv (by simp)
  have hv := (aboutY_deriv (hxi 4) ((aboutZ_deriv (hxi 6) hk).const_add ![p 1, 0, 0])).const_add ![0, 0, -p 35]
  refine (onBicycle_deriv hx hv).congr_deriv ?_
  have pyth := Real.sin_sq_add_cos_sq (x t 2)
  funext i
  fin_cases i
  · simp [aboutZ, aboutX, aboutY, rim]
    linear_combination Real.cos (x t 2) * r3 - Real.sin (x t 2) * r4 - x' 0 * pyth
  · simp [aboutZ, aboutX, aboutY, rim]
    linear_combination Real.sin (x t 2) * r3 + Real.cos (x t 2) * r4 - x' 1 * pyth
  · simp [aboutZ, aboutX, aboutY, rim]
    linear_combination r5 + x' 7 * l3

/-- **C130.** The front wheel rolls without slipping: the lowest point of its rim is at rest. -/
theorem C130_front_rolls (lam : ℝ) (junk : ℕ → ℝ) (p : Fin 36 → ℝ) (x : ℝ → Fin 13 → ℝ) (r : Fin 4 → ℝ) (t : ℝ)
    (hx : HasDerivAt x (rates lam junk p (x t) r) t)
    (hdef : ∀ s ∈ body, s.2.Safe (cellsAt lam junk p (x t) r)) (hrf : 0 < p 34)
    (φ : ℝ) (low : Lowest (p 35) (p 34) (p 1) (p 2) (p 3) (x t) φ) :
    HasDerivAt (fun s => frontPoint (p 35) (p 34) (p 1) (p 2) (p 3) (x s) φ) 0 t :=
  front_rolls_of lam junk p x r t hx ((C126_defined lam junk p (x t) r).mp hdef).1
    ((C126_defined lam junk p (x t) r).mp hdef).2.1 hrf φ low

/-! ## The front wheel stays on the ground -/

/-- The height of the lowest point of the front wheel. -/
noncomputable def lowHeight (p : Fin 36 → ℝ) (x : Fin 13 → ℝ) : ℝ :=
  frontPoint (p 35) 0 (p 1) (p 2) (p 3) x 0 2 + p 34 *
    √((Real.sin (x 3) * Real.sin (x 6) - Real.cos (x 3) * Real.sin (x 4) * Real.cos (x 6)) ^ 2 +
      (Real.cos (x 3) * Real.cos (x 4)) ^ 2)

theorem lowHeight_le (p : Fin 36 → ℝ) (hrf : 0 < p 34) (x : Fin 13 → ℝ) (φ : ℝ) :
    frontPoint (p 35) (p 34) (p 1) (p 2) (p 3) x φ 2 ≤ lowHeight p x := by
  rw [front_height, lowHeight]
  refine add_le_add_right (mul_le_mul_of_nonneg_left ?_ hrf.le) _
  refine Real.le_sqrt_of_sq_le ?_
  obtain ⟨a, ea⟩ : ∃ a, a = Real.sin (x 3) * Real.sin (x 6) - Real.cos (x 3) * Real.sin (x 4) * Real.cos (x 6) := ⟨_, rfl⟩
  obtain ⟨b, eb⟩ : ∃ b, b = Real.cos (x 3) * Real.cos (x 4) := ⟨_, rfl⟩
  rw [← ea, ← eb]
  have h := Real.sin_sq_add_cos_sq (φ + x 7)
  have : a ^ 2 + b ^ 2 - (a * Real.sin (φ + x 7) + b * Real.cos (φ + x 7)) ^ 2 =
      (a * Real.cos (φ + x 7) - b * Real.sin (φ + x 7)) ^ 2 := by linear_combination (-(a ^ 2 + b ^ 2)) * h
  nlinarith [sq_nonneg (a * Real.cos (φ + x 7) - b * Real.sin (φ + x 7))]

/-- The root in cells. -/
theorem low_cells (lam : ℝ) (junk : ℕ → ℝ) (p : Fin 36 → ℝ) (x : Fin 13 → ℝ) (r : Fin 4 → ℝ) :
    cellsAt lam junk p x r 35 =
      (Real.sin (x 3) * Real.sin (x 6) - Real.cos (x 3) * Real.sin (x 4) * Real.cos (x 6)) ^ 2 +
      (Real.cos (x 3) * Real.cos (x 4)) ^ 2 := by
  have heq := cellsAt_equation lam junk p x r
  have V := rollVals heq
  obtain ⟨t3, t4, t5, t6, t9, t10⟩ := roll_trig heq
  obtain ⟨⟨-, b3, b4, b6⟩, -⟩ := arg_cells lam junk p x r
  rw [(rollEqs heq).e35, V.v33, V.v34, t3, t4, t5, t6, t9, t10, b3, b4, b6]

theorem lowHeight_eq (lam : ℝ) (junk : ℕ → ℝ) (p : Fin 36 → ℝ) (x : Fin 13 → ℝ) (r : Fin 4 → ℝ)
    (h35 : 0 < cellsAt lam junk p x r 35) (hrf : 0 < p 34) (φ : ℝ)
    (low : Lowest (p 35) (p 34) (p 1) (p 2) (p 3) x φ) :
    frontPoint (p 35) (p 34) (p 1) (p 2) (p 3) x φ 2 = lowHeight p x := by
  obtain ⟨l1, l2⟩ := (lowest_cells lam junk p x r h35 hrf φ).mp low
  have heq := cellsAt_equation lam junk p x r
  have V := rollVals heq
  have e36 := (rollEqs heq).e36
  rw [pow_one, low_cells] at e36
  obtain ⟨t3, t4, t5, t6, t9, t10⟩ := roll_trig heq
  obtain ⟨⟨-, b3, b4, b6⟩, -⟩ := arg_cells lam junk p x r
  rw [V.v33, t3, t4, t6, t9, t10, b3, b4, b6] at l1
  rw [V.v34, t3, t5, b3, b4] at l2
  rw [front_height, lowHeight, ← e36, ← l1, ← l2]
  linear_combination (p 34 * cellsAt lam junk p x r 36) * Real.sin_sq_add_cos_sq (φ + x 7)

theorem lowHeight_differentiable (p : Fin 36 → ℝ) {x : ℝ → Fin 13 → ℝ} {t : ℝ} (hx : DifferentiableAt ℝ x t)
    (h : (Real.sin (x t 3) * Real.sin (x t 6) - Real.cos (x t 3) * Real.sin (x t 4) * Real.cos (x t 6)) ^ 2 +
      (Real.cos (x t 3) * Real.cos (x t 4)) ^ 2 ≠ 0) : DifferentiableAt ℝ (fun s => lowHeight p (x s)) t := by
  have h0 := differentiableAt_pi.mp hx
  have h3 := h0 3
  have h4 := h0 4
  have h6 := h0 6
  have h7 := h0 7
  unfold lowHeight
  have e : (fun s => frontPoint (p 35) 0 (p 1) (p 2) (p 3) (x s) 0 2) = fun s =>
      Real.sin (x s 3) * (Real.sin (x s 6) * p 3) + Real.cos (x s 3) *
        (-p 35 + (Real.cos (x s 4) * p 2 - Real.sin (x s 4) * (p 1 + Real.cos (x s 6) * p 3))) := by
    funext s
    rw [front_form]
    simp [onBicycle, aboutX, aboutY, aboutZ, rim]
  refine DifferentiableAt.add ?_ (DifferentiableAt.const_mul ?_ _)
  · rw [e]; fun_prop
  · refine DifferentiableAt.sqrt ?_ h
    fun_prop

/-- **C130.** The front wheel stays on the ground: along a ride, the height of the lowest point of the front wheel
does not change. -/
theorem C130_stays_on_ground (lam : ℝ → ℝ) (junk : ℕ → ℝ) (p : Fin 36 → ℝ) (r : ℝ → Fin 4 → ℝ)
    (x : ℝ → Fin 13 → ℝ) (a b : ℝ) (hx : ∀ t ∈ Set.Ioo a b, HasDerivAt x (rates (lam t) junk p (x t) (r t)) t)
    (hdef : ∀ t ∈ Set.Ioo a b, ∀ s ∈ body, s.2.Safe (cellsAt (lam t) junk p (x t) (r t))) (hrf : 0 < p 34)
    (s t : ℝ) (hs : s ∈ Set.Ioo a b) (ht : t ∈ Set.Ioo a b) (φ ψ : ℝ)
    (lows : Lowest (p 35) (p 34) (p 1) (p 2) (p 3) (x s) φ) (lowt : Lowest (p 35) (p 34) (p 1) (p 2) (p 3) (x t) ψ) :
    frontPoint (p 35) (p 34) (p 1) (p 2) (p 3) (x s) φ 2 = frontPoint (p 35) (p 34) (p 1) (p 2) (p 3) (x t) ψ 2 := by
  have h35 : ∀ t ∈ Set.Ioo a b, 0 < cellsAt (lam t) junk p (x t) (r t) 35 := fun t ht =>
    ((C126_defined (lam t) junk p (x t) (r t)).mp (hdef t ht)).1
  rw [lowHeight_eq (lam s) junk p (x s) (r s) (h35 s hs) hrf φ lows,
    lowHeight_eq (lam t) junk p (x t) (r t) (h35 t ht) hrf ψ lowt]
  have key : ∀ t ∈ Set.Ioo a b, HasDerivAt (fun s => lowHeight p (x s)) 0 t := by
    intro t ht
    have hd := lowHeight_differentiable p (hx t ht).differentiableAt (by
      have := h35 t ht
      rw [low_cells] at this
      exact this.ne')
    obtain ⟨hw, hw2⟩ := roll_root (cellsAt_equation (lam t) junk p (x t) (r t)) (h35 t ht)
    obtain ⟨β, h1, h2⟩ := angle_of hw hw2
    have low : Lowest (p 35) (p 34) (p 1) (p 2) (p 3) (x t) (β - x t 7) := by
      rw [lowest_cells (lam t) junk p (x t) (r t) (h35 t ht) hrf, sub_add_cancel]
      exact ⟨h1, h2⟩
    have h0 := hasDerivAt_pi.mp (C130_front_rolls (lam t) junk p x (r t) t (hx t ht) (hdef t ht) hrf _ low) 2
    have hmin : IsLocalMin (fun s => lowHeight p (x s) -
        frontPoint (p 35) (p 34) (p 1) (p 2) (p 3) (x s) (β - x t 7) 2) t := by
      refine Filter.Eventually.of_forall fun s => ?_
      have e := lowHeight_eq (lam t) junk p (x t) (r t) (h35 t ht) hrf _ low
      have le := lowHeight_le p hrf (x s) (β - x t 7)
      simp only
      rw [e, sub_self]
      linarith
    have hz := hmin.hasDerivAt_eq_zero (hd.hasDerivAt.sub h0)
    rw [Pi.zero_apply, sub_zero] at hz
    rw [← hz]
    exact hd.hasDerivAt
  have cont : ∀ u v, u ∈ Set.Ioo a b → v ∈ Set.Ioo a b → u ≤ v → lowHeight p (x v) = lowHeight p (x u) := by
    intro u v hu hv huv
    have sub : Set.Icc u v ⊆ Set.Ioo a b := fun w hw => ⟨hu.1.trans_le hw.1, hw.2.trans_lt hv.2⟩
    exact constant_of_has_deriv_right_zero (fun w hw => (key w (sub hw)).continuousAt.continuousWithinAt)
      (fun w hw => (key w (sub ⟨hw.1, hw.2.le⟩)).hasDerivWithinAt) v ⟨huv, le_rfl⟩
  rcases le_total s t with h | h
  · exact (cont s t hs ht h).symm
  · exact cont t s ht hs h

/-- **C130.** In particular no point of the front wheel ever gets below the ground if the wheel once touches it. -/
theorem C130_above_ground (lam : ℝ → ℝ) (junk : ℕ → ℝ) (p : Fin 36 → ℝ) (r : ℝ → Fin 4 → ℝ)
    (x : ℝ → Fin 13 → ℝ) (a b : ℝ) (hx : ∀ t ∈ Set.Ioo a b, HasDerivAt x (rates (lam t) junk p (x t) (r t)) t)
    (hdef : ∀ t ∈ Set.Ioo a b, ∀ s ∈ body, s.2.Safe (cellsAt (lam t) junk p (x t) (r t))) (hrf : 0 < p 34)
    (s t : ℝ) (hs : s ∈ Set.Ioo a b) (ht : t ∈ Set.Ioo a b) (φ : ℝ)
    (lows : Lowest (p 35) (p 34) (p 1) (p 2) (p 3) (x s) φ)
    (touch : frontPoint (p 35) (p 34) (p 1) (p 2) (p 3) (x s) φ 2 = 0) :
    (∀ ψ, frontPoint (p 35) (p 34) (p 1) (p 2) (p 3) (x t) ψ 2 ≤ 0) ∧
    ∃ ψ, frontPoint (p 35) (p 34) (p 1) (p 2) (p 3) (x t) ψ 2 = 0 := by
  have h35 := ((C126_defined (lam t) junk p (x t) (r t)).mp (hdef t ht)).1
  obtain ⟨hw, hw2⟩ := roll_root (cellsAt_equation (lam t) junk p (x t) (r t)) h35
  obtain ⟨β, h1, h2⟩ := angle_of hw hw2
  have low : Lowest (p 35) (p 34) (p 1) (p 2) (p 3) (x t) (β - x t 7) := by
    rw [lowest_cells (lam t) junk p (x t) (r t) h35 hrf, sub_add_cancel]
    exact ⟨h1, h2⟩
  have e := C130_stays_on_ground lam junk p r x a b hx hdef hrf s t hs ht φ _ lows low
  rw [touch] at e
  exact ⟨fun ψ => (low ψ).trans e.symm.le, _, e.symm⟩

/-- **C130.** On the bicycle that rides straight ahead, the lowest point of the front wheel is the contact point, `w`
ahead of the other one. -/
theorem C130_contact_points (pitch : ℝ → ℝ → ℝ → ℝ → ℝ → ℝ → ℝ → ℝ) (f : String → ℝ)
    (lam w c Ω : ℝ) (h : LeanUsable pitch f lam w c) (hrf : 0 < f "rf") :
    Lowest (f "rr") (f "rf") (f "d1") (f "d2") (f "d3") (ahead lam Ω) (-lam) ∧
    frontPoint (f "rr") (f "rf") (f "d1") (f "d2") (f "d3") (ahead lam Ω) (-lam) = ![w, 0, 0] ∧
    rearPoint (f "rr") (ahead lam Ω) (-lam) = 0 := by
  have e := h.stands.front
  have e0 := congrFun e 0
  have e2 := congrFun e 2
  simp [LeanPar.frontCentre, LeanPar.axisPoint, LeanPar.rearCentre, acrossDir, steerDir, LeanPar.of] at e0 e2
  have pyth := Real.sin_sq_add_cos_sq lam
  refine ⟨?_, ?_, ?_⟩
  · intro φ
    rw [front_height, front_height _ _ _ _ _ _ (-lam)]
    simp only [ahead, Matrix.cons_val, Real.sin_zero, Real.cos_zero, add_zero, Real.sin_neg, Real.cos_neg]
    have := Real.cos_le_one (φ + lam)
    rw [Real.cos_add] at this
    nlinarith
  · rw [front_form]
    funext i
    fin_cases i
    · simp [onBicycle, aboutX, aboutY, aboutZ, rim, ahead]
      linear_combination e0
    · simp [onBicycle, aboutX, aboutY, aboutZ, rim, ahead]
    · simp [onBicycle, aboutX, aboutY, aboutZ, rim, ahead]
      linear_combination e2 + f "rf" * pyth
  · rw [rearPoint, aboutY_rim, aboutY_rim]
    funext i
    fin_cases i <;> simp [onBicycle, aboutX, aboutY, aboutZ, rim, ahead]

/-- A ride that meets all conditions: on the ground, with both wheels rolling. -/
example (Ω : ℝ) : ∃ (f : String → ℝ) (x : ℝ → Fin 13 → ℝ), 0 < slotVector f 34 ∧ slotVector f 35 ≠ 0 ∧
    (∀ t ∈ Set.Ioo (-1 : ℝ) 1, HasDerivAt x (rates 0 0 (slotVector f) (x t) 0) t) ∧
    (∀ t ∈ Set.Ioo (-1 : ℝ) 1, ∀ s ∈ body, s.2.Safe (cellsAt 0 0 (slotVector f) (x t) 0)) ∧
    (∃ φ, Lowest (slotVector f 35) (slotVector f 34) (slotVector f 1) (slotVector f 2) (slotVector f 3) (x 0) φ ∧
      frontPoint (slotVector f 35) (slotVector f 34) (slotVector f 1) (slotVector f 2) (slotVector f 3) (x 0) φ 2
        = 0) ∧
    (∃ φ, Real.cos (x 0 3) ≠ 0 ∧ rearPoint (slotVector f 35) (x 0) φ 2 = 0) ∧ x 0 10 = Ω := by
  obtain ⟨f, w, c, h, -, -, -, -, hrf, hrr⟩ := example_leanWheels 0
  obtain ⟨h1, h2, h3⟩ := C130_contact_points _ f 0 w c Ω h hrf
  have x0 : moved 0 0 0 (Ω * 0) (Ω * f "rr" / f "rf" * 0) (ahead 0 Ω) = ahead 0 Ω := by
    funext i
    fin_cases i <;> simp [moved, turnGround, ahead]
  refine ⟨f, fun t => moved (-(Ω * f "rr") * t) 0 0 (Ω * t) (Ω * f "rr" / f "rf" * t) (ahead 0 Ω), hrf, hrr.ne',
    fun t _ => ?_, fun t _ => ?_, ?_, ?_, ?_⟩
  · have := C129_straight_ride _ 0 f 0 w c Ω h 0 0 0 0 0 t
    have e : (fun t => moved (-(Ω * f "rr") * t) 0 0 (Ω * t) (Ω * f "rr" / f "rf" * t) (ahead 0 Ω)) = fun t =>
        ![0 - Real.cos 0 * (Ω * f "rr") * t, 0 - Real.sin 0 * (Ω * f "rr") * t, 0, 0, 0, 0 + Ω * t, 0,
          0 + Ω * f "rr" / f "rf" * t, 0, 0, Ω, 0, 0] := by
      funext t i
      fin_cases i <;> simp [moved, turnGround, ahead]
    rw [e]
    exact this
  · exact (moved_safe 0 0 (slotVector f) (ahead 0 Ω) 0 _ 0 0 _ _).mpr (C127_steady_riding _ 0 f 0 w c Ω h).2
  all_goals simp only [mul_zero] at x0 ⊢
  all_goals rw [x0]
  · exact ⟨_, h1, congrFun h2 2⟩
  · exact ⟨-0, by simp [ahead], congrFun h3 2⟩
  · rfl

end BP.EL
