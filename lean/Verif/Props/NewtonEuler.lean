import Mathlib.Analysis.Calculus.Deriv.Mul
import Mathlib.Analysis.Calculus.Deriv.Add
import Mathlib.Analysis.SpecialFunctions.ExpDeriv
import Verif.Props.Canonical
import Verif.Spec.NewtonEuler

/-!
# C84: the canonical matrices are the linearised Newton-Euler equations
-/

set_option linter.unusedSimpArgs false

namespace BP

open Real Matrix Spec

/-- Rear wheel and rear frame; the wheel rolls with the forward speed `v`. -/
noncomputable def Spec.rearBodies (p : Bench) (IByy v : ℝ) : List SpinBody :=
  [⟨planarBody p.mR 0 (-p.rR) p.IRxx p.IRyy 0 p.IRxx, -(v / p.rR)⟩,
   ⟨planarBody p.mB p.xB p.zB p.IBxx IByy p.IBxz p.IBzz, 0⟩]

/-- Front frame and front wheel. -/
noncomputable def Spec.frontBodies (p : Bench) (IHyy v : ℝ) : List SpinBody :=
  [⟨planarBody p.mH p.xH p.zH p.IHxx IHyy p.IHxz p.IHzz, 0⟩,
   ⟨planarBody p.mF p.w (-p.rF) p.IFxx p.IFyy 0 p.IFxx, -(v / p.rF)⟩]

theorem planar_mulVec (a b d e x y z : ℝ) :
    (!![a, 0, b; 0, d, 0; b, 0, e] : Matrix (Fin 3) (Fin 3) ℝ) *ᵥ ![x, y, z] =
      ![a * x + b * z, d * y, b * x + e * z] := by
  ext i; fin_cases i <;> simp [Matrix.mulVec, dotProduct, Fin.sum_univ_three]

theorem omegaFront_eq (lam a b d : ℝ) :
    omegaFront lam a b d = ![a + d * sin lam, 0, b + d * cos lam] := by
  ext i; fin_cases i <;> simp [omegaFront, omegaRear, steerDir]

theorem velRear_one (a b x y z : ℝ) : velRear a b ![x, y, z] 1 = b * x - a * z := by
  simp [velRear, rotVel, omegaRear, crossProduct]

theorem velFront_one (w c lam a b d x y z : ℝ) : velFront w c lam a b d ![x, y, z] 1 =
    b * x - a * z + d * (cos lam * (x - (w + c)) - sin lam * z) := by
  simp [velFront, velRear, rotVel, omegaRear, steerDir, crossProduct]; ring

/-- Moment of inertia forces of a body in the symmetry plane. -/
theorem inertiaMoment_eq (m x z Ixx Iyy Ixz Izz Ω ox a ωx ωz αx αz : ℝ) :
    SpinBody.inertiaMoment ⟨planarBody m x z Ixx Iyy Ixz Izz, Ω⟩ ![ox, 0, 0] a ![ωx, 0, ωz] ![αx, 0, αz] =
      ![-z * (m * a) + (Ixx * αx + Ixz * αz) - ωz * (Iyy * Ω), 0,
        (x - ox) * (m * a) + (Ixz * αx + Izz * αz) + ωx * (Iyy * Ω)] := by
  unfold SpinBody.inertiaMoment SpinBody.angularRate
  have : Ω • yHat = ![0, Ω, 0] := by ext i; fin_cases i <;> simp [yHat]
  rw [this]
  simp only [planarBody, planar_mulVec]
  ext i; fin_cases i <;> simp [yHat, crossProduct] <;> ring

/-- Moment about the steer axis of a lateral force. -/
theorem steer_moment (lam x z o f : ℝ) :
    steerDir lam ⬝ᵥ ((![x, 0, z] - ![o, 0, 0]) ⨯₃ (f • yHat)) =
      f * ((x - o) * cos lam - z * sin lam) := by
  simp [steerDir, yHat, crossProduct, dotProduct, Fin.sum_univ_three]; ring

/-- At one instant whose accelerations satisfy the differentiated rolling constraints. -/
theorem balance_iff (p : Bench) (hA : p.mA ≠ 0) (hT : p.mT ≠ 0) (hw : p.w ≠ 0)
    (IByy IHyy v g Tφ Tδ : ℝ) (s : Instant)
    (hy : s.y'' = v * s.ψ')
    (h1 : p.w * s.ψ' = (v * s.δ + p.c * s.δ') * cos p.lam)
    (h2 : p.w * s.ψ'' = (v * s.δ' + p.c * s.δ'') * cos p.lam) :
    MomentBalance (rearBodies p IByy v) (frontBodies p IHyy v) p.w p.c p.lam g Tφ Tδ s ↔
    p.canon.M *ᵥ ![s.φ'', s.δ''] + v • p.canon.C1 *ᵥ ![s.φ', s.δ'] +
      (g • p.canon.K0 + v ^ 2 • p.canon.K2) *ᵥ ![s.φ, s.δ] = ![Tφ, Tδ] := by
  set κ := cos p.lam / p.w with hκd
  have hκ : p.w * κ = cos p.lam := by rw [hκd]; field_simp
  have hκ' : p.c / p.w * cos p.lam = p.c * κ := by rw [hκd]; ring
  have e1 : s.ψ' = κ * (v * s.δ + p.c * s.δ') := by
    apply mul_left_cancel₀ hw; rw [h1, ← hκ]; ring
  have e2 : s.ψ'' = κ * (v * s.δ' + p.c * s.δ'') := by
    apply mul_left_cancel₀ hw; rw [h2, ← hκ]; ring
  rw [canon_eq_canonOfMoments p hA hT, momT_eq, momA_eq]
  unfold MomentBalance rearBodies frontBodies
  simp only [canonOfMoments, Moments.axisMoment, hκ']
  rw [← hκd]
  have h0 : (0 : V3) = ![0, 0, 0] := by ext i; fin_cases i <;> rfl
  have hyaw : ∀ F : ℝ, ((![p.w, 0, 0] : V3) ⨯₃ (F • yHat)) 2 = p.w * F := by
    intro F; simp [crossProduct, yHat]
  rw [h0]
  have hr : ∀ m x z Ixx Iyy Ixz Izz : ℝ, (planarBody m x z Ixx Iyy Ixz Izz).r = ![x, 0, z] := fun _ _ _ _ _ _ _ => rfl
  have hm : ∀ m x z Ixx Iyy Ixz Izz : ℝ, (planarBody m x z Ixx Iyy Ixz Izz).m = m := fun _ _ _ _ _ _ _ => rfl
  simp only [hr, hm, omegaFront_eq, omegaRear, lateralRear, lateralFront, velRear_one, velFront_one,
    List.map_cons, List.map_nil, List.sum_cons, List.sum_nil, List.cons_append, List.nil_append,
    inertiaMoment_eq, steer_moment, hyaw]
  have hrow : ∀ (M C K0 K2 : Mat2 ℝ) (a b c d e f : ℝ),
      (M *ᵥ ![a, b] + v • C *ᵥ ![c, d] + (g • K0 + v ^ 2 • K2) *ᵥ ![e, f] = ![Tφ, Tδ]) ↔
      (M 0 0 * a + M 0 1 * b + v * (C 0 0 * c + C 0 1 * d) + ((g * K0 0 0 + v ^ 2 * K2 0 0) * e +
        (g * K0 0 1 + v ^ 2 * K2 0 1) * f) = Tφ ∧
       M 1 0 * a + M 1 1 * b + v * (C 1 0 * c + C 1 1 * d) + ((g * K0 1 0 + v ^ 2 * K2 1 0) * e +
        (g * K0 1 1 + v ^ 2 * K2 1 1) * f) = Tδ) := by
    intro M C K0 K2 a b c d e f
    simp [funext_iff, Fin.forall_fin_two, Matrix.mulVec, dotProduct, Fin.sum_univ_two]
  rw [hrow]
  simp only [steerDir, dotProduct, Fin.sum_univ_three]
  simp only [hy, e2, e1, ← hκ]
  simp
  simp only [Bench.ITxx, Bench.ITxz, Bench.ITzz, Bench.IRzz, Bench.IFzz, Bench.SR, Bench.SF, Bench.mA]
  constructor
  · rintro ⟨F, N, hN, hroll, hyw, hsteer⟩
    constructor
    · linear_combination hroll + (s.ψ - s.δ * κ * p.c) * hN
    · linear_combination hsteer + p.c * κ * hyw - (s.φ + s.δ * sin p.lam) * (p.c * κ) * hN
  · rintro ⟨r1, r2⟩
    obtain ⟨N, hN⟩ : ∃ N, p.w * N + (p.xB * (p.mB * g) + (p.xH * (p.mH * g) + p.w * (p.mF * g))) = 0 :=
      ⟨-(p.xB * (p.mB * g) + (p.xH * (p.mH * g) + p.w * (p.mF * g))) / p.w, by field_simp; ring⟩
    have hex : ∀ a : ℝ, ∃ F, a = p.w * F := fun a => ⟨a / p.w, by field_simp⟩
    obtain ⟨F, hF⟩ := hex _
    refine ⟨F, N, hN, ?_, hF, ?_⟩
    · linear_combination r1 - (s.ψ - s.δ * κ * p.c) * hN
    · linear_combination r2 - p.c * κ * hF + (s.φ + s.δ * sin p.lam) * (p.c * κ) * hN

/-- The differentiated rolling constraints. -/
theorem rolling_rates (v w c lam : ℝ) (y φ ψ δ ψ' δ' : ℝ → ℝ) (hr : RollsWithoutSlip v w c lam y φ ψ δ)
    (hψ : ∀ t, HasDerivAt ψ (ψ' t) t) (hδ : ∀ t, HasDerivAt δ (δ' t) t) (t : ℝ) :
    w * ψ' t = (v * δ t + c * δ' t) * cos lam := by
  have h1 := hr.2 t
  have e : (fun s => lateralFront w c lam (y s) (φ s) (ψ s) (δ s) ![w, 0, 0]) =
      fun s => y s + (ψ s * w + δ s * (cos lam * (-c))) := by
    funext s
    rw [lateralFront, velFront_one]; ring
  rw [e] at h1
  have h2 := (hr.1 t).add (((hψ t).mul_const w).add ((hδ t).mul_const (cos lam * (-c))))
  have h3 := h1.unique h2
  rw [omegaFront_eq] at h3
  simp only [Matrix.cons_val] at h3
  linear_combination -h3

/-- **C84.** For every parameter dictionary, at every instant of every rolling motion, the
equations `M q'' + v C1 q' + (g K0 + v² K2) q = T` with the returned matrices hold iff the
moments on the four bodies are balanced (`Spec.MomentBalance`). -/
theorem C84_canonical_is_newton_euler (d d' : Dict ℝ) (k : Canon) (p : Bench)
    (hk : benchmarkParToCanonical d = (d', .ok k)) (hp : p = Bench.ofDict d)
    (hA : p.mH + p.mF ≠ 0) (hT : p.mR + p.mB + p.mH + p.mF ≠ 0) (hw : p.w ≠ 0)
    (IByy IHyy v g : ℝ) (Tφ Tδ y φ ψ δ φ' ψ' δ' φ'' ψ'' δ'' : ℝ → ℝ)
    (hψ : ∀ t, HasDerivAt ψ (ψ' t) t) (hψ' : ∀ t, HasDerivAt ψ' (ψ'' t) t)
    (hδ : ∀ t, HasDerivAt δ (δ' t) t) (hδ' : ∀ t, HasDerivAt δ' (δ'' t) t)
    (hroll : RollsWithoutSlip v p.w p.c p.lam y φ ψ δ) (t : ℝ) :
    MomentBalance (rearBodies p IByy v) (frontBodies p IHyy v) p.w p.c p.lam g (Tφ t) (Tδ t)
      ⟨φ t, ψ t, δ t, φ' t, ψ' t, δ' t, v * ψ' t, φ'' t, ψ'' t, δ'' t⟩ ↔
    k.M *ᵥ ![φ'' t, δ'' t] + v • k.C1 *ᵥ ![φ' t, δ' t] +
      (g • k.K0 + v ^ 2 • k.K2) *ᵥ ![φ t, δ t] = ![Tφ t, Tδ t] := by
  obtain ⟨_, _, rfl⟩ := canonical_ok d d' k hk
  rw [← hp]
  have h1 := rolling_rates v p.w p.c p.lam y φ ψ δ ψ' δ' hroll hψ hδ
  have h2 : p.w * ψ'' t = (v * δ' t + p.c * δ'' t) * cos p.lam := by
    have e : (fun s => ψ' s * p.w) = fun s => (v * δ s + p.c * δ' s) * cos p.lam := by
      funext s; rw [mul_comm]; exact h1 s
    have a := (hψ' t).mul_const p.w
    rw [e] at a
    have b := (((hδ t).const_mul v).add ((hδ' t).const_mul p.c)).mul_const (cos p.lam)
    rw [mul_comm]; exact a.unique b
  exact balance_iff p hA hT hw IByy IHyy v g (Tφ t) (Tδ t) _ rfl (h1 t) h2

/-- **C84.** In state space form: for a physical bicycle, the motion satisfies
`x' = A x + B u` with the matrices of `ab_matrix`, for `x = (φ, δ, φ', δ')`,
`u = (Tφ, Tδ)`, iff its moments are balanced at every instant. -/
theorem C84_state_space_is_newton_euler (d d' : Dict ℝ) (k : Canon) (p : Bench)
    (hk : benchmarkParToCanonical d = (d', .ok k)) (hp : p = Bench.ofDict d)
    (hA : p.mH + p.mF ≠ 0) (hT : p.mR + p.mB + p.mH + p.mF ≠ 0) (hw : p.w ≠ 0) (hM : k.M.det ≠ 0)
    (IByy IHyy v g : ℝ) (Tφ Tδ y φ ψ δ φ' ψ' δ' φ'' ψ'' δ'' : ℝ → ℝ)
    (hψ : ∀ t, HasDerivAt ψ (ψ' t) t) (hψ' : ∀ t, HasDerivAt ψ' (ψ'' t) t)
    (hδ : ∀ t, HasDerivAt δ (δ' t) t) (hδ' : ∀ t, HasDerivAt δ' (δ'' t) t)
    (hroll : RollsWithoutSlip v p.w p.c p.lam y φ ψ δ) :
    (∀ t, MomentBalance (rearBodies p IByy v) (frontBodies p IHyy v) p.w p.c p.lam g (Tφ t) (Tδ t)
      ⟨φ t, ψ t, δ t, φ' t, ψ' t, δ' t, v * ψ' t, φ'' t, ψ'' t, δ'' t⟩) ↔
    ∀ t, ![φ' t, δ' t, φ'' t, δ'' t] =
      abA k.M k.C1 k.K0 k.K2 v g *ᵥ ![φ t, δ t, φ' t, δ' t] + abB k.M *ᵥ ![Tφ t, Tδ t] := by
  refine forall_congr' fun t => ?_
  rw [C84_canonical_is_newton_euler d d' k p hk hp hA hT hw IByy IHyy v g Tφ Tδ y φ ψ δ φ' ψ' δ' φ''
    ψ'' δ'' hψ hψ' hδ hδ' hroll t,
    C01_ab_matrix_realises_eom k.M k.C1 k.K0 k.K2 v g hM]
  simp [Matrix.smul_mulVec]

/-- non-vacuity of C84: a bicycle with growing steer angle, yaw and lateral displacement
rolls without slip. -/
example (v : ℝ) : RollsWithoutSlip v 1 (1 / 10) 0
    (fun t => v * (v + 1 / 10) * exp t) (fun _ => 0) (fun t => (v + 1 / 10) * exp t) exp := by
  constructor
  · intro t
    have := (hasDerivAt_exp t).const_mul (v * (v + 1 / 10))
    simpa [mul_assoc] using this
  · intro t
    have e : (fun s => lateralFront 1 (1 / 10) 0 (v * (v + 1 / 10) * exp s) 0 ((v + 1 / 10) * exp s)
        (exp s) ![1, 0, 0]) = fun s => (v * (v + 1 / 10) + v) * exp s := by
      funext s; rw [lateralFront, velFront_one]; simp; ring
    rw [e, omegaFront_eq]
    have := (hasDerivAt_exp t).const_mul (v * (v + 1 / 10) + v)
    have e2 : v * (![(0 : ℝ) + exp t * sin 0, 0, (v + 1 / 10) * exp t + exp t * cos 0] : V3) 2 =
        (v * (v + 1 / 10) + v) * exp t := by simp; ring
    rw [e2]; exact this

end BP
