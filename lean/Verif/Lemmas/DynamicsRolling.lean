import Verif.Lemmas.DynamicsPower

/-!
# Motions whose wheels roll fit the rolling conditions
-/

set_option linter.unusedSimpArgs false

namespace BP.EL

open BP.Spec Matrix

attribute [local irreducible] rates cellsAt evalLinear

theorem back_about {θ a b : ℝ} {w : Fin 3 → ℝ} (h : (![a, b, 0] + aboutZ θ w : Fin 3 → ℝ) = 0) :
    Real.cos θ * a + Real.sin θ * b + w 0 = 0 ∧ Real.cos θ * b - Real.sin θ * a + w 1 = 0 ∧ w 2 = 0 := by
  have e0 := congrFun h 0
  have e1 := congrFun h 1
  have e2 := congrFun h 2
  have pyth := Real.sin_sq_add_cos_sq θ
  simp [aboutZ] at e0 e1 e2
  refine ⟨?_, ?_, e2⟩
  · linear_combination Real.cos θ * e0 + Real.sin θ * e1 - w 0 * pyth
  · linear_combination Real.cos θ * e1 - Real.sin θ * e0 - w 1 * pyth

theorem rear_speeds {rr : ℝ} {y : ℝ → Fin 13 → ℝ} {y' : Fin 13 → ℝ} {t : ℝ} (hy : HasDerivAt y y' t)
    (h : ∀ φ, rearPoint rr (y t) φ = ![y t 0, y t 1, 0] → HasDerivAt (fun s => rearPoint rr (y s) φ) 0 t) :
    Real.cos (y t 2) * y' 0 + Real.sin (y t 2) * y' 1 + rr * (y' 4 + y' 5) = 0 ∧
    Real.cos (y t 2) * y' 1 - Real.sin (y t 2) * y' 0 = 0 := by
  have hyi := hasDerivAt_pi.mp hy
  obtain ⟨φ, hφ⟩ : ∃ φ, φ + y t 5 + y t 4 = 0 := ⟨-y t 5 - y t 4, by ring⟩
  have form : ∀ s, rearPoint rr (y s) φ = onBicycle (y s) (![0, 0, -rr] + rim rr (φ + y s 5 + y s 4)) :=
    fun s => by rw [rearPoint, aboutY_rim, aboutY_rim]
  have v0 : (![0, 0, -rr] + rim rr (φ + y t 5 + y t 4) : Fin 3 → ℝ) = 0 := by
    funext i
    fin_cases i <;> simp [rim, hφ]
  have h0 := h φ (by
    rw [form, v0, onBicycle]
    funext i
    fin_cases i <;> simp [aboutZ, aboutX])
  rw [show (fun s => rearPoint rr (y s) φ) = fun s => onBicycle (y s)
      (![0, 0, -rr] + rim rr (φ + y s 5 + y s 4)) from funext form] at h0
  have hα : HasDerivAt (fun s => φ + y s 5 + y s 4) (y' 5 + y' 4) t := ((hyi 5).const_add φ).add (hyi 4)
  have hv : HasDerivAt (fun s => (![0, 0, -rr] + rim rr (φ + y s 5 + y s 4) : Fin 3 → ℝ))
      ![rr * (y' 5 + y' 4), 0, 0] t := by
    refine hasDerivAt_vec3 ?_ ?_ ?_
    · exact ((hα.sin.const_mul rr).const_add 0).congr_deriv (by simp [hφ])
    · exact ((hasDerivAt_const t (0 : ℝ)).const_add 0).congr_deriv (by simp)
    · exact ((hα.cos.const_mul rr).const_add (-rr)).congr_deriv (by simp [hφ])
  have e := (onBicycle_deriv hy hv).unique h0
  rw [v0] at e
  have e0 := congrFun e 0
  have e1 := congrFun e 1
  have pyth := Real.sin_sq_add_cos_sq (y t 2)
  simp [aboutZ, aboutX] at e0 e1
  refine ⟨?_, ?_⟩
  · linear_combination Real.cos (y t 2) * e0 + Real.sin (y t 2) * e1 - rr * (y' 5 + y' 4) * pyth
  · linear_combination Real.cos (y t 2) * e1 - Real.sin (y t 2) * e0

theorem rolls_dependent (lam : ℝ) (junk : ℕ → ℝ) (f : String → ℝ) (x : Fin 13 → ℝ) (r : Fin 4 → ℝ)
    (hdef : ∀ s ∈ body, s.2.Safe (cellsAt lam junk (slotVector f) x r)) (hrf : 0 < f "rf")
    {y : ℝ → Fin 13 → ℝ} {y' : Fin 13 → ℝ} {t : ℝ} (hy : HasDerivAt y y' t) (same : ∀ i : Fin 13, i.1 < 9 → y t i = x i)
    (roll : RollsAt f y t) : Dependent (cellsAt lam junk (slotVector f) x r) (nineOf y') 0 0 0 0 0 := by
  obtain ⟨h35, h494, -⟩ := (C126_defined lam junk (slotVector f) x r).mp hdef
  have heq := cellsAt_equation lam junk (slotVector f) x r
  obtain ⟨g5, g6, g7⟩ := roll_height heq h35
  obtain ⟨l1, l2, l3⟩ := roll_lowest heq h35
  obtain ⟨hw, hw'⟩ := roll_root heq h35
  obtain ⟨t3, t4, t5, t6, t9, t10⟩ := roll_trig heq
  obtain ⟨⟨b2, b3, b4, b6⟩, c1, c2, c3, c34, c35⟩ := arg_cells lam junk (slotVector f) x r
  have V := rollVals heq
  have v1 := V.v1
  have v2 := V.v2
  rw [b2] at v1 v2
  have z0 := same 0 (by decide)
  have z1 := same 1 (by decide)
  have z2 := same 2 (by decide)
  have z3 := same 3 (by decide)
  have z4 := same 4 (by decide)
  have z6 := same 6 (by decide)
  have z7 := same 7 (by decide)
  obtain ⟨r1, r2⟩ := rear_speeds hy roll.rear
  rw [z2] at r1 r2
  obtain ⟨β, hβ1, hβ2⟩ := angle_of hw hw'
  obtain ⟨φ, hφ⟩ : ∃ φ, φ + x 7 = β := ⟨β - x 7, by ring⟩
  rw [← hφ] at hβ1 hβ2
  have low : Lowest (f "rr") (f "rf") (f "d1") (f "d2") (f "d3") x φ :=
    (lowest_cells lam junk (slotVector f) x r h35 hrf φ).mpr ⟨hβ1, hβ2⟩
  have place : ∀ ψ, frontPoint (f "rr") (f "rf") (f "d1") (f "d2") (f "d3") (y t) ψ =
      frontPoint (f "rr") (f "rf") (f "d1") (f "d2") (f "d3") x ψ := fun ψ => by
    simp only [frontPoint, onBicycle, z0, z1, z2, z3, z4, z6, z7]
  have h0 := roll.front φ (fun ψ => by rw [place, place]; exact low ψ)
  rw [show (fun s => frontPoint (f "rr") (f "rf") (f "d1") (f "d2") (f "d3") (y s) φ) = fun s => onBicycle (y s)
      (![0, 0, -f "rr"] + aboutY (y s 4) (![f "d1", 0, 0] + aboutZ (y s 6) (![f "d3", 0, f "d2"] +
        rim (f "rf") (φ + y s 7)))) from funext fun s => front_form ..] at h0
  have hyi := hasDerivAt_pi.mp hy
  have hα : HasDerivAt (fun s => φ + y s 7) (y' 7) t := (hyi 7).const_add φ
  have hk : HasDerivAt (fun s => (![f "d3", 0, f "d2"] + rim (f "rf") (φ + y s 7) : Fin 3 → ℝ))
      ![f "rf" * (Real.cos (φ + y t 7) * y' 7), 0, f "rf" * (-Real.sin (φ + y t 7) * y' 7)] t := by
    refine hasDerivAt_vec3 ?_ ?_ ?_
    · exact ((hα.sin.const_mul (f "rf")).const_add (f "d3")).congr_deriv (by simp)
    · exact ((hasDerivAt_const t (0 : ℝ)).const_add 0).congr_deriv (by simp)
    · exact ((hα.cos.const_mul (f "rf")).const_add (f "d2")).congr_deriv (by simp)
  have hv := (aboutY_deriv (hyi 4) ((aboutZ_deriv (hyi 6) hk).const_add ![f "d1", 0, 0])).const_add ![0, 0, -f "rr"]
  have e := (onBicycle_deriv hy hv).unique h0
  obtain ⟨e0, e1, e2⟩ := back_about e
  simp only [z0, z1, z2, z3, z4, z6, z7] at e0 e1 e2
  simp [aboutZ, aboutX, aboutY, rim] at e0 e1 e2
  have e39 : cellsAt lam junk (slotVector f) x r 39 = f "rf" * Real.sin (φ + x 7) := by
    refine mul_right_cancel₀ hw.ne' ?_
    rw [l1, c34]
    change f "rf" * _ = _
    linear_combination (-f "rf") * hβ1
  have e40 : cellsAt lam junk (slotVector f) x r 40 = f "rf" * Real.cos (φ + x 7) := by
    refine mul_right_cancel₀ hw.ne' ?_
    rw [l2, c34]
    change f "rf" * _ = _
    linear_combination (-f "rf") * hβ2
  rw [t3, t4, t5, t6, t9, t10, e39, e40, b3, b4, b6] at l3
  have d1 : cellsAt lam junk (slotVector f) x r 5049 = f "d1" := c1
  have d2 : cellsAt lam junk (slotVector f) x r 5050 = f "d2" := c2
  have d3 : cellsAt lam junk (slotVector f) x r 5051 = f "d3" := c3
  have d35 : cellsAt lam junk (slotVector f) x r 5083 = f "rr" := c35
  refine roll_unique heq h494 (nineOf y') 0 0 0 0 0 ?_ ?_ ?_ ?_ ?_
  · rw [v1, v2, d35, add_zero]; exact r1
  · rw [v1, v2, add_zero]; exact r2
  · rw [V.v463, V.v464, V.v466, V.v467, v1, v2, t3, t4, t5, t6, t9, t10, e39, e40, b3, b4, b6, d1, d2, d3, d35]
    simp only [nineOf]
    linear_combination e0
  · rw [V.v470, V.v471, V.v472, V.v473, V.v474, v1, v2, t3, t4, t5, t6, t9, t10, e39, e40, b3, b4, b6, d1, d2, d3, d35]
    simp only [nineOf]
    linear_combination e1
  · rw [g5, g6, g7, t3, t4, t5, t6, t9, t10, e39, e40, b3, b4, b6, d1, d2, d3, d35]
    simp only [nineOf]
    linear_combination e2 - y' 7 * l3

end BP.EL
