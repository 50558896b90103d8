import Verif.Props.Invariance
import Verif.Spec.RideSymmetry

/-!
# C131: the mirror image, the reverse, and other units of a ride
-/

set_option linter.unusedSimpArgs false

namespace BP.EL

open BP.Spec Matrix

theorem sign_tables_rates : ∀ i : Fin 13, Nat.testBit assigned (rateCell i) = true ∧
    look mirrorTable (rateCell i) = mirrorCode i ∧
    look reversalTable (rateCell i) = (if i.1 < 9 then 2 else 1) := by decide +kernel

theorem coords_mirrored (x : Fin 13 → ℝ) : coords (mirrored x) = fun i => coordMirror i * coords x i := by
  funext i
  fin_cases i <;> rfl

theorem speeds_mirrored (x : Fin 13 → ℝ) : speeds (mirrored x) = fun i => speedMirror i * speeds x i := by
  funext i
  fin_cases i <;> rfl

theorem cells_mirror (lam : ℝ) (junk : ℕ → ℝ) (p : Fin 36 → ℝ) (x : Fin 13 → ℝ) (r : Fin 4 → ℝ) :
    ∀ l, Nat.testBit assigned l = true → cellsAt lam junk p (mirrored x) (mirroredTorques r) l =
      sgn (look mirrorTable l) * cellsAt lam junk p x r l := by
  unfold cellsAt
  refine run_graded sign_action mirrorTable body body_mirror inputs assigned body_defined _ _ ?_
  obtain ⟨t1, t2, t3, t4, t5, -⟩ := sign_tables_inputs
  rw [coords_mirrored, speeds_mirrored]
  refine inputs_cases ?_ ?_ ?_ ?_ ?_
  · intro i _; rw [(t1 i).1, sgn_coordMirror, start_q, start_q]
  · intro i; rw [(t2 i).1, sgn_speedMirror, start_u, start_u]
  · intro i; rw [(t3 i).1, sgn_speedMirror, start_r, start_r]; rfl
  · intro i; rw [(t4 i).1, start_p, start_p]; simp [sgn]
  · rw [t5, start_lam, start_lam]; simp [sgn]

theorem cells_reversal (lam : ℝ) (junk : ℕ → ℝ) (p : Fin 36 → ℝ) (x : Fin 13 → ℝ) (r : Fin 4 → ℝ) :
    ∀ l, Nat.testBit assigned l = true → cellsAt lam junk (antidamped p) (reversed x) r l =
      sgn (look reversalTable l) * cellsAt lam junk p x r l := by
  unfold cellsAt
  refine run_graded sign_action reversalTable body body_reversal inputs assigned body_defined _ _ ?_
  obtain ⟨t1, t2, t3, t4, -, t5⟩ := sign_tables_inputs
  refine inputs_cases ?_ ?_ ?_ ?_ ?_
  · intro i _; rw [(t1 i).2, start_q, start_q]; fin_cases i <;> simp [sgn, coords, reversed, stateReversal]
  · intro i; rw [(t2 i).2, start_u, start_u]; fin_cases i <;> simp [sgn, speeds, reversed, stateReversal]
  · intro i; rw [(t3 i).2, start_r, start_r]; simp [sgn]
  · intro i; rw [(t4 i).2, start_p, start_p]
    by_cases h : i = 0
    · subst h; simp [sgn, antidamped]
    · simp [sgn, h, antidamped]
  · rw [t5, start_lam, start_lam]; simp [sgn]

attribute [local irreducible] rates cellsAt evalLinear

/-- **C131.** Mirrored state and torques have the mirrored rates. -/
theorem C131_mirror (lam : ℝ) (junk : ℕ → ℝ) (p : Fin 36 → ℝ) (x : Fin 13 → ℝ) (r : Fin 4 → ℝ) :
    rates lam junk p (mirrored x) (mirroredTorques r) = mirrored (rates lam junk p x r) := by
  funext i
  obtain ⟨h1, h2, -⟩ := sign_tables_rates i
  rw [rates_eq, cells_mirror lam junk p x r _ h1, h2, sgn_state, mirrored, rates_eq]

/-- **C131.** With reversed speeds the coordinates change in the opposite direction, and the accelerations are the same,
for the opposite lean damping. -/
theorem C131_reversal (lam : ℝ) (junk : ℕ → ℝ) (p : Fin 36 → ℝ) (x : Fin 13 → ℝ) (r : Fin 4 → ℝ) :
    rates lam junk (antidamped p) (reversed x) r = -reversed (rates lam junk p x r) := by
  funext i
  obtain ⟨h1, -, h2⟩ := sign_tables_rates i
  rw [rates_eq, cells_reversal lam junk p x r _ h1, h2, Pi.neg_apply, reversed, rates_eq, ← neg_mul]
  congr 1
  unfold stateReversal sgn
  by_cases h : i.1 < 9 <;> simp [h]

/-- Mirroring as a linear map. -/
noncomputable def mirrorMap : (Fin 13 → ℝ) →ₗ[ℝ] (Fin 13 → ℝ) where
  toFun := mirrored
  map_add' v w := by funext i; exact mul_add ..
  map_smul' c v := by funext i; simp only [mirrored, Pi.smul_apply, smul_eq_mul, RingHom.id_apply]; ring

/-- Reversing as a linear map. -/
noncomputable def reverseMap : (Fin 13 → ℝ) →ₗ[ℝ] (Fin 13 → ℝ) where
  toFun := reversed
  map_add' v w := by funext i; exact mul_add ..
  map_smul' c v := by funext i; simp only [reversed, Pi.smul_apply, smul_eq_mul, RingHom.id_apply]; ring

/-- **C131.** The mirror image of a ride is a ride. -/
theorem C131_mirror_ride (lam : ℝ) (junk : ℕ → ℝ) (p : Fin 36 → ℝ) (r : ℝ → Fin 4 → ℝ) (x : ℝ → Fin 13 → ℝ)
    (h : Rides lam junk p r x) : Rides lam junk p (fun t => mirroredTorques (r t)) fun t => mirrored (x t) := by
  intro t
  rw [C131_mirror]
  exact (mirrorMap.toContinuousLinearMap.hasFDerivAt (x := x t)).comp_hasDerivAt t (h t)

/-- **C131.** A ride run backwards is a ride of the bicycle with the opposite lean damping. -/
theorem C131_backwards (lam : ℝ) (junk : ℕ → ℝ) (p : Fin 36 → ℝ) (r : ℝ → Fin 4 → ℝ) (x : ℝ → Fin 13 → ℝ)
    (h : Rides lam junk p r x) : Rides lam junk (antidamped p) (fun t => r (-t)) fun t => reversed (x (-t)) := by
  intro t
  have h1 : HasDerivAt (fun s : ℝ => x (-s)) (-rates lam junk p (x (-t)) (r (-t))) t := by
    have := (h (-t)).scomp t (hasDerivAt_neg t)
    exact this.congr_deriv (by simp)
  have h2 := (reverseMap.toContinuousLinearMap.hasFDerivAt (x := x (-t))).comp_hasDerivAt t h1
  rw [C131_reversal]
  refine h2.congr_deriv ?_
  exact map_neg reverseMap _

/-! ## Units -/

theorem unit_tables_rates : ∀ i : Fin 13, ((look massTable (rateCell i) : ℤ) - 64,
    (look lengthTable (rateCell i) : ℤ) - 64, (look timeTable (rateCell i) : ℤ) - 64) =
      stateDim i + (0, 0, -1) := by decide +kernel

theorem cells_units (lam : ℝ) (junk : ℕ → ℝ) (p : Fin 36 → ℝ) (x : Fin 13 → ℝ) (r : Fin 4 → ℝ) (M L T : ℝ)
    (hM : 0 < M) (hL : 0 < L) (hT : 0 < T) : ∀ l, Nat.testBit assigned l = true →
      cellsAt lam junk (parametersInUnits M L T p) (inUnits M L T x) (torquesInUnits M L T r) l =
      factor M L T ((look massTable l : ℤ) - 64, (look lengthTable l : ℤ) - 64,
        (look timeTable l : ℤ) - 64) * cellsAt lam junk p x r l := by
  unfold cellsAt
  obtain ⟨m, hm⟩ : ∃ m, m = start (fun _ _ _ _ _ _ _ => lam) junk (coords x) (speeds x) r p := ⟨_, rfl⟩
  obtain ⟨m', hm'⟩ : ∃ m', m' = start (fun _ _ _ _ _ _ _ => lam) junk (coords (inUnits M L T x))
    (speeds (inUnits M L T x)) (torquesInUnits M L T r) (parametersInUnits M L T p) := ⟨_, rfl⟩
  rw [← hm, ← hm']
  obtain ⟨m1, hm1⟩ : ∃ m1 : ℕ → ℝ, m1 = fun l => M ^ ((look massTable l : ℤ) - 64) * m l := ⟨_, rfl⟩
  obtain ⟨m2, hm2⟩ : ∃ m2 : ℕ → ℝ, m2 = fun l => L ^ ((look lengthTable l : ℤ) - 64) * m1 l := ⟨_, rfl⟩
  have k1 := run_graded (unit_action hM) massTable body body_mass inputs assigned body_defined m m1
    (fun l _ => congrFun hm1 l)
  have k2 := run_graded (unit_action hL) lengthTable body body_length inputs assigned body_defined
    m1 m2 (fun l _ => congrFun hm2 l)
  have k3 := run_graded (unit_action hT) timeTable body body_time inputs assigned body_defined
    m2 m' ?_
  · intro l hl
    rw [k3 l hl, k2 l hl, k1 l hl]
    simp only [factor]; ring
  · obtain ⟨t1, t2, t3, t4, t5⟩ := tables_inputs
    have e : ∀ l (x : ℝ) (D : Dim), ((look massTable l : ℤ) - 64, (look lengthTable l : ℤ) - 64,
        (look timeTable l : ℤ) - 64) = D → m' l = factor M L T D * x → m l = x →
        m' l = T ^ ((look timeTable l : ℤ) - 64) * m2 l := by
      rintro l x D rfl h1 h2
      rw [h1, hm2, hm1, ← h2]; simp only [factor]; ring
    refine inputs_cases ?_ ?_ ?_ ?_ ?_
    · intro i _
      refine e _ (coords x i) _ (t1 i) ?_ (by rw [hm]; exact start_q ..)
      rw [hm', start_q]; fin_cases i <;> rfl
    · intro i
      refine e _ (speeds x i) _ (t2 i) ?_ (by rw [hm]; exact start_u ..)
      rw [hm', start_u]; fin_cases i <;> rfl
    · intro i
      exact e _ (r i) _ (t3 i) (by rw [hm']; exact start_r ..) (by rw [hm]; exact start_r ..)
    · intro i
      exact e _ (p i) _ (t4 i) (by rw [hm']; exact start_p ..) (by rw [hm]; exact start_p ..)
    · refine e _ lam _ t5 ?_ (by rw [hm]; exact start_lam ..)
      rw [hm', start_lam]; simp [factor]

/-- **C131.** In other units the rates are the same physical quantities. -/
theorem C131_units (lam : ℝ) (junk : ℕ → ℝ) (p : Fin 36 → ℝ) (x : Fin 13 → ℝ) (r : Fin 4 → ℝ) (M L T : ℝ)
    (hM : 0 < M) (hL : 0 < L) (hT : 0 < T) :
    rates lam junk (parametersInUnits M L T p) (inUnits M L T x) (torquesInUnits M L T r) =
      T⁻¹ • inUnits M L T (rates lam junk p x r) := by
  funext i
  obtain ⟨h1, -⟩ := sign_tables_rates i
  rw [rates_eq, cells_units lam junk p x r M L T hM hL hT _ h1, unit_tables_rates, Pi.smul_apply, inUnits, rates_eq,
    smul_eq_mul, ← mul_assoc]
  congr 1
  simp only [factor, Prod.fst_add, Prod.snd_add, add_zero]
  rw [zpow_add₀ hT.ne', zpow_neg_one]
  ring

/-- Other units as a linear map. -/
noncomputable def unitMap (M L T : ℝ) : (Fin 13 → ℝ) →ₗ[ℝ] (Fin 13 → ℝ) where
  toFun := inUnits M L T
  map_add' v w := by funext i; exact mul_add ..
  map_smul' c v := by funext i; simp only [inUnits, Pi.smul_apply, smul_eq_mul, RingHom.id_apply]; ring

/-- **C131.** A ride described in other units, also of time, is a ride of the bicycle described in these units. -/
theorem C131_units_ride (lam : ℝ) (junk : ℕ → ℝ) (p : Fin 36 → ℝ) (r : ℝ → Fin 4 → ℝ) (x : ℝ → Fin 13 → ℝ)
    (M L T : ℝ) (hM : 0 < M) (hL : 0 < L) (hT : 0 < T) (h : Rides lam junk p r x) :
    Rides lam junk (parametersInUnits M L T p) (fun t => torquesInUnits M L T (r (T⁻¹ * t)))
      fun t => inUnits M L T (x (T⁻¹ * t)) := by
  intro t
  have h1 : HasDerivAt (fun s : ℝ => x (T⁻¹ * s)) (T⁻¹ • rates lam junk p (x (T⁻¹ * t)) (r (T⁻¹ * t))) t := by
    have := (h (T⁻¹ * t)).scomp t ((hasDerivAt_id t).const_mul T⁻¹)
    exact this.congr_deriv (by simp)
  have h2 := ((unitMap M L T).toContinuousLinearMap.hasFDerivAt (x := x (T⁻¹ * t))).comp_hasDerivAt t h1
  rw [C131_units _ _ _ _ _ _ _ _ hM hL hT]
  refine h2.congr_deriv ?_
  exact map_smul (unitMap M L T) _ _

/-- Rides, in any direction and at any speed, with their mirror images and the rides back. -/
example (Ω ψ : ℝ) : ∃ (f : String → ℝ) (x : ℝ → Fin 13 → ℝ), Rides 0 0 (slotVector f) 0 x ∧ x 0 2 = ψ ∧ x 0 10 = Ω ∧
    Rides 0 0 (slotVector f) (fun _ => mirroredTorques 0) (fun t => mirrored (x t)) ∧ mirrored (x 0) 2 = -ψ ∧
    Rides 0 0 (antidamped (slotVector f)) (fun _ => 0) (fun t => reversed (x (-t))) ∧ reversed (x (-0)) 10 = -Ω := by
  obtain ⟨f, w, c, h, -⟩ := example_leanUsable 0
  have hx := C129_straight_ride _ 0 f 0 w c Ω h 0 0 ψ 0 0
  exact ⟨f, _, hx, rfl, rfl, C131_mirror_ride _ _ _ _ _ hx, by simp [mirrored, stateMirror, coordMirror],
    C131_backwards _ _ _ _ _ hx, by simp [reversed, stateReversal]⟩

end BP.EL
