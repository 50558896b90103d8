import Verif.Props.Stability

/-!
# C145: the steady turn

Riding a circle with a small constant steer angle is a state with zero rates that the state space form keeps. The lean it needs
and the steer torque that holds it are determined by the dictionary.
-/

set_option linter.unusedSimpArgs false

namespace BP

open Real Matrix Spec

/-! ## Specification -/

/-- Lean `φ`, steer `δ`, no rates, no roll torque and steer torque `T` are a steady motion at speed `v`: the state does not
change. -/
def Spec.SteadyTurn (c : Canon) (v g φ δ T : ℝ) : Prop :=
  abA c.M c.C1 c.K0 c.K2 v g *ᵥ ![φ, δ, 0, 0] + abB c.M *ᵥ ![0, T] = 0

/-- Moment of all masses about the ground line: `∑ m h`, with the wheel centres at the height of their radii and `z` pointing
down. -/
noncomputable def Spec.massMoment (d : Dict ℝ) : ℝ :=
  let v := fun k => Dict.getD d k 0
  v "mR" * v "rR" - v "mB" * v "zB" - v "mH" * v "zH" + v "mF" * v "rF"

/-- Angular momentum of the rolling wheels per unit of speed. -/
noncomputable def Spec.spin (d : Dict ℝ) : ℝ :=
  let v := fun k => Dict.getD d k 0
  v "IRyy" / v "rR" + v "IFyy" / v "rF"

/-- Rate of yaw of a bicycle with wheelbase `w` and steer axis tilt `lam` that rolls at speed `v` with the small steer angle
`δ`: the wheels point along the circle. -/
noncomputable def Spec.yawRate (d : Dict ℝ) (v δ : ℝ) : ℝ :=
  v * (δ * cos (Dict.getD d "lam" 0)) / Dict.getD d "w" 0

/-- How far the steered bicycle moves its mass to the side of the line through its contact points, times mass, per unit of steer
angle: handlebar and front wheel turn about the steer axis, from which they are `u` away, and the line of contact turns by
`c/w cos lam` under all masses. -/
noncomputable def Spec.sideShift (d : Dict ℝ) : ℝ :=
  let v := fun k => Dict.getD d k 0
  let u := fun x z => (x - v "w" - v "c") * cos (v "lam") - z * sin (v "lam")
  v "mH" * u (v "xH") (v "zH") + v "mF" * u (v "w") (-v "rF") +
    v "c" / v "w" * cos (v "lam") * (v "mB" * v "xB" + v "mH" * v "xH" + v "mF" * v "w")

/-! ## Theorems -/

theorem steady_iff (c : Canon) (v g φ δ T : ℝ) (hM : c.M.det ≠ 0) :
    SteadyTurn c v g φ δ T ↔ stiffness c v g *ᵥ ![φ, δ] = ![0, T] := by
  have h := C01_ab_matrix_realises_eom c.M c.C1 c.K0 c.K2 v g hM ![φ, δ, 0, 0] 0 ![0, T]
  unfold SteadyTurn
  rw [eq_comm, h]
  have h0 : (![0, 0] : Fin 2 → ℝ) = 0 := by ext i; fin_cases i <;> rfl
  simp [stiffness, h0]

/-- The first row of the equations in terms of the parameters. -/
theorem roll_row (d d' : Dict ℝ) (c : Canon) (hd : benchmarkParToCanonical d = (d', .ok c))
    (hT : Dict.getD d "mR" 0 + Dict.getD d "mB" 0 + Dict.getD d "mH" 0 + Dict.getD d "mF" 0 ≠ 0)
    (hA : Dict.getD d "mH" 0 + Dict.getD d "mF" 0 ≠ 0) :
    c.K0 0 0 = -massMoment d ∧ c.K0 0 1 = -sideShift d ∧ c.K2 0 0 = 0 ∧
      c.K2 0 1 = (massMoment d + spin d) * cos (Dict.getD d "lam" 0) / Dict.getD d "w" 0 := by
  obtain ⟨-, -, rfl⟩ := canonical_ok d d' c hd
  have hz : (Bench.ofDict d).mT * (Bench.ofDict d).zT = -massMoment d := by
    have : (Bench.ofDict d).mT ≠ 0 := hT
    unfold Bench.zT
    rw [mul_div_cancel₀ _ this]
    simp only [Bench.ofDict, massMoment]
    ring
  have hS : (Bench.ofDict d).SA = sideShift d := by
    have h1 : (Bench.ofDict d).mT ≠ 0 := hT
    have h2 : (Bench.ofDict d).mA ≠ 0 := hA
    have e1 : (Bench.ofDict d).mT * (Bench.ofDict d).xT = (Bench.ofDict d).xB * (Bench.ofDict d).mB +
        (Bench.ofDict d).xH * (Bench.ofDict d).mH + (Bench.ofDict d).w * (Bench.ofDict d).mF := by
      unfold Bench.xT; rw [mul_div_cancel₀ _ h1]
    have e2 : (Bench.ofDict d).mA * (Bench.ofDict d).xA =
        (Bench.ofDict d).xH * (Bench.ofDict d).mH + (Bench.ofDict d).w * (Bench.ofDict d).mF := by
      unfold Bench.xA; rw [mul_div_cancel₀ _ h2]
    have e3 : (Bench.ofDict d).mA * (Bench.ofDict d).zA =
        (Bench.ofDict d).zH * (Bench.ofDict d).mH - (Bench.ofDict d).rF * (Bench.ofDict d).mF := by
      unfold Bench.zA; rw [mul_div_cancel₀ _ h2]
    have e4 : (Bench.ofDict d).mA = (Bench.ofDict d).mH + (Bench.ofDict d).mF := rfl
    unfold Bench.SA Bench.uA Bench.mu
    rw [mul_assoc _ (Bench.ofDict d).mT, e1]
    simp only [sideShift]
    simp only [Bench.ofDict] at e2 e3 e4 ⊢
    linear_combination cos (Dict.getD d "lam" 0) * e2 - sin (Dict.getD d "lam" 0) * e3 -
      (Dict.getD d "w" 0 + Dict.getD d "c" 0) * cos (Dict.getD d "lam" 0) * e4
  refine ⟨?_, ?_, ?_, ?_⟩
  · simpa [Bench.canon, Bench.K0] using hz
  · simp [Bench.canon, Bench.K0, hS]
  · simp [Bench.canon, Bench.K2]
  · simp only [Bench.canon, Bench.K2, Matrix.of_apply, Matrix.cons_val_zero, Matrix.cons_val_one, Matrix.cons_val', hz]
    simp only [Bench.ST, Bench.SR, Bench.SF, spin, Bench.ofDict]
    ring

/-- **C145.** In a steady turn the bicycle leans so far that the moment of gravity is that of the centrifugal force on its
masses and of the gyroscopic moment of its wheels, less the moment of the masses that the steer angle moves sideways. -/
theorem C145_lean (d d' : Dict ℝ) (c : Canon) (hd : benchmarkParToCanonical d = (d', .ok c))
    (hT : Dict.getD d "mR" 0 + Dict.getD d "mB" 0 + Dict.getD d "mH" 0 + Dict.getD d "mF" 0 ≠ 0)
    (hA : Dict.getD d "mH" 0 + Dict.getD d "mF" 0 ≠ 0) (hM : c.M.det ≠ 0) (v g φ δ T : ℝ)
    (h : SteadyTurn c v g φ δ T) :
    massMoment d * g * φ = (massMoment d + spin d) * v * yawRate d v δ - sideShift d * g * δ := by
  rw [steady_iff c v g φ δ T hM] at h
  obtain ⟨h00, h01, h10, h11⟩ := roll_row d d' c hd hT hA
  have h0 := congrFun h 0
  simp [stiffness, Matrix.mulVec, dotProduct, h00, h01, h10, h11] at h0
  unfold yawRate
  linear_combination -h0

/-- **C145.** So the bicycle leans into the turn exactly when it is fast enough; slower, it leans out of it. -/
theorem C145_leans_into (d d' : Dict ℝ) (c : Canon) (hd : benchmarkParToCanonical d = (d', .ok c))
    (hT : Dict.getD d "mR" 0 + Dict.getD d "mB" 0 + Dict.getD d "mH" 0 + Dict.getD d "mF" 0 ≠ 0)
    (hA : Dict.getD d "mH" 0 + Dict.getD d "mF" 0 ≠ 0) (hM : c.M.det ≠ 0) (v g φ δ T : ℝ) (hg : 0 < g)
    (hm : 0 < massMoment d) (hδ : δ ≠ 0) (h : SteadyTurn c v g φ δ T) :
    0 < φ * δ ↔ sideShift d * g < (massMoment d + spin d) * (v ^ 2 * cos (Dict.getD d "lam" 0) / Dict.getD d "w" 0) := by
  have e := C145_lean d d' c hd hT hA hM v g φ δ T h
  have e2 : massMoment d * g * (φ * δ) = ((massMoment d + spin d) *
      (v ^ 2 * cos (Dict.getD d "lam" 0) / Dict.getD d "w" 0) - sideShift d * g) * δ ^ 2 := by
    unfold yawRate at e
    linear_combination δ * e
  have hd2 : 0 < δ ^ 2 := by positivity
  have hmg : 0 < massMoment d * g := by positivity
  rw [← mul_pos_iff_of_pos_left hmg, e2, mul_pos_iff_of_pos_right hd2, sub_pos]

/-- **C145.** For every steer angle there is exactly one lean and one steer torque of a steady turn, provided the masses are
above the ground. -/
theorem C145_one_turn (c : Canon) (v g δ : ℝ) (hM : c.M.det ≠ 0) (hK : stiffness c v g 0 0 ≠ 0) :
    ∃! p : ℝ × ℝ, SteadyTurn c v g p.1 δ p.2 := by
  refine ⟨(-(stiffness c v g 0 1 * δ) / stiffness c v g 0 0, (stiffness c v g).det / stiffness c v g 0 0 * δ), ?_, ?_⟩
  · simp only []
    rw [steady_iff _ _ _ _ _ _ hM]
    ext i
    fin_cases i
    · simp [Matrix.mulVec, dotProduct]; field_simp; ring
    · simp [Matrix.mulVec, dotProduct, det_fin_two]; field_simp; ring
  · rintro ⟨φ, T⟩ h
    rw [steady_iff _ _ _ _ _ _ hM] at h
    have h0 := congrFun h 0
    have h1 := congrFun h 1
    simp [Matrix.mulVec, dotProduct] at h0 h1
    have e : φ = -(stiffness c v g 0 1 * δ) / stiffness c v g 0 0 := by
      field_simp; linear_combination h0
    refine Prod.ext e ?_
    show T = _
    rw [← h1, e, det_fin_two]
    field_simp
    ring

/-- **C145.** At the speed with an eigenvalue zero, and at no other, a turn needs no steer torque. -/
theorem C145_hands_off (c : Canon) (v g φ δ T : ℝ) (hM : c.M.det ≠ 0) (hK : stiffness c v g 0 0 ≠ 0) (hδ : δ ≠ 0)
    (h : SteadyTurn c v g φ δ T) : T = 0 ↔ IsEigenvalue (toC (abA c.M c.C1 c.K0 c.K2 v g)) 0 := by
  have hT : T = (stiffness c v g).det / stiffness c v g 0 0 * δ := by
    rw [steady_iff _ _ _ _ _ _ hM] at h
    have h0 := congrFun h 0
    have h1 := congrFun h 1
    simp [Matrix.mulVec, dotProduct] at h0 h1
    rw [← h1, det_fin_two]
    field_simp
    linear_combination (stiffness c v g 1 0) * h0
  rw [C02_eigenvalues_are_roots _ _ _ _ _ _ _ hM]
  change _ ↔ (pencil c v g 0).det = 0
  rw [pencil_quartic, hT]
  simp [hδ, hK]

/-- **C145.** At a self-stable speed the steer must be held back: the torque of a steady turn is against the steer angle. -/
theorem C145_held_back (d d' : Dict ℝ) (c : Canon) (hd : benchmarkParToCanonical d = (d', .ok c))
    (hT : Dict.getD d "mR" 0 + Dict.getD d "mB" 0 + Dict.getD d "mH" 0 + Dict.getD d "mF" 0 ≠ 0)
    (hA : Dict.getD d "mH" 0 + Dict.getD d "mF" 0 ≠ 0) (hM : 0 < c.M.det) (v g φ δ T : ℝ) (hg : 0 < g)
    (hm : 0 < massMoment d) (hs : Damped c v g) (hδ : δ ≠ 0) (h : SteadyTurn c v g φ δ T) : T * δ < 0 := by
  rw [C142_routh_hurwitz c v g hM] at hs
  obtain ⟨-, -, -, hdet, -⟩ := hs
  obtain ⟨h00, -, h10, -⟩ := roll_row d d' c hd hT hA
  have hk : stiffness c v g 0 0 < 0 := by
    simp [stiffness, h00, h10]; positivity
  rw [steady_iff _ _ _ _ _ _ hM.ne'] at h
  have h0 := congrFun h 0
  have h1 := congrFun h 1
  simp [Matrix.mulVec, dotProduct] at h0 h1
  have : stiffness c v g 0 0 * (T * δ) = (stiffness c v g).det * δ ^ 2 := by
    rw [← h1, det_fin_two]; linear_combination (stiffness c v g 1 0) * δ * h0
  have hpos : 0 < stiffness c v g 0 0 * (T * δ) := by rw [this]; positivity
  by_contra hn
  push Not at hn
  exact absurd hpos (not_lt.2 (mul_nonpos_of_nonpos_of_nonneg hk.le hn))

/-- non-vacuity of C145: the bicycle of C142 at 6 m/s, where it is self-stable, in a turn with steer angle 0.1 -/
theorem example_turn : ∃ d' φ T, benchmarkParToCanonical steadyDict = (d', .ok steadyCanon) ∧
    Dict.getD steadyDict "mR" 0 + Dict.getD steadyDict "mB" 0 + Dict.getD steadyDict "mH" 0 + Dict.getD steadyDict "mF" 0 ≠ 0 ∧
    Dict.getD steadyDict "mH" 0 + Dict.getD steadyDict "mF" 0 ≠ 0 ∧ 0 < steadyCanon.M.det ∧ 0 < massMoment steadyDict ∧
    Damped steadyCanon 6 (981 / 100) ∧ SteadyTurn steadyCanon 6 (981 / 100) φ (1 / 10) T := by
  obtain ⟨d', hd⟩ := steady_canonical
  obtain ⟨p, hp, -⟩ := C145_one_turn steadyCanon 6 (981 / 100) (1 / 10) steady_mass.ne'
    (by simp [stiffness, steadyCanon])
  refine ⟨d', p.1, p.2, hd, ?_, ?_, steady_mass, ?_, steady_damped 6 (by norm_num) (by norm_num), hp⟩
  · simp [steadyDict, Dict.getD, Dict.find?]; norm_num
  · simp [steadyDict, Dict.getD, Dict.find?]; norm_num
  · simp [massMoment, steadyDict, Dict.getD, Dict.find?]; norm_num

end BP
