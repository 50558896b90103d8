import Verif.Props.SteadyTurn
import Mathlib.Analysis.Calculus.Deriv.Prod
import Mathlib.Analysis.Calculus.Deriv.Pow

/-!
# C149: the standing bicycle
-/

set_option linter.unusedSimpArgs false

namespace BP

open Real Matrix Spec Set

/-! ## Specification -/

/-- Gravitational energy for small lean `φ` and steer `δ`: the masses go down when the bicycle leans, are moved sideways by the
steer, and go down with the square of the steer angle because of the tilt of the steer axis. -/
noncomputable def Spec.weightEnergy (d : Dict ℝ) (g φ δ : ℝ) : ℝ :=
  -(g * (1 / 2 * massMoment d * φ ^ 2 + sideShift d * φ * δ + 1 / 2 * sideShift d * sin (Dict.getD d "lam" 0) * δ ^ 2))

/-! ## Energy -/

theorem steer_row (d d' : Dict ℝ) (c : Canon) (hd : benchmarkParToCanonical d = (d', .ok c)) :
    c.K0 1 0 = c.K0 0 1 ∧ c.K0 1 1 = c.K0 0 1 * sin (Dict.getD d "lam" 0) ∧ c.M 1 0 = c.M 0 1 := by
  obtain ⟨-, -, rfl⟩ := canonical_ok d d' c hd
  refine ⟨?_, ?_, ?_⟩
  · simp [Bench.canon, Bench.K0]
  · simp [Bench.canon, Bench.K0, Bench.ofDict]
  · simp [Bench.canon, Bench.M]

/-- **C149.** Standing still, under any torques, the kinetic energy of the four bodies (of C04) and the energy of their weights
together change exactly by the power of the torques: nothing else drives or brakes the bicycle. -/
theorem C149_energy (d d' : Dict ℝ) (c : Canon) (hd : benchmarkParToCanonical d = (d', .ok c)) (IByy IHyy g : ℝ)
    (hT : (Bench.ofDict d).mT ≠ 0) (hA : (Bench.ofDict d).mA ≠ 0) (hw : (Bench.ofDict d).w ≠ 0) (hM : c.M.det ≠ 0)
    (x : ℝ → Fin 4 → ℝ) (ψd : ℝ → ℝ) (T : ℝ → Fin 2 → ℝ)
    (hx : ∀ t, HasDerivAt x (abA c.M c.C1 c.K0 c.K2 0 g *ᵥ x t + abB c.M *ᵥ T t) t)
    (hyaw : ∀ t, velFront (Bench.ofDict d).w (Bench.ofDict d).c (Bench.ofDict d).lam (x t 2) (ψd t) (x t 3)
      ![(Bench.ofDict d).w, 0, 0] 1 = 0) (t : ℝ) :
    let p := Bench.ofDict d
    HasDerivAt (fun s => bicycleEnergy [p.bodyR, p.bodyB IByy] [p.bodyH IHyy, p.bodyF] p.w p.c p.lam (x s 2) (ψd s) (x s 3) +
      weightEnergy d g (x s 0) (x s 1)) (T t 0 * x t 2 + T t 1 * x t 3) t := by
  intro p
  obtain ⟨h00, h01, -, -⟩ := roll_row d d' c hd hT hA
  obtain ⟨h10, h11, hsym⟩ := steer_row d d' c hd
  have hc : c = p.canon := (canonical_ok d d' c hd).2.2
  have hE : ∀ s, bicycleEnergy [p.bodyR, p.bodyB IByy] [p.bodyH IHyy, p.bodyF] p.w p.c p.lam (x s 2) (ψd s) (x s 3) =
      1 / 2 * (c.M 0 0 * x s 2 ^ 2 + 2 * c.M 0 1 * x s 2 * x s 3 + c.M 1 1 * x s 3 ^ 2) := by
    intro s
    rw [← C04_mass_matrix_is_kinetic_energy p IByy IHyy hA hT hw (x s 2) (ψd s) (x s 3) (hyaw s), ← hc]
    simp [dotProduct, Matrix.mulVec, hsym]
    ring
  simp only [hE]
  obtain ⟨e0, e1, em⟩ := (C01_ab_matrix_realises_eom c.M c.C1 c.K0 c.K2 0 g hM (x t) _ (T t)).1 rfl
  have hxp := hx t
  set xd := abA c.M c.C1 c.K0 c.K2 0 g *ᵥ x t + abB c.M *ᵥ T t with hxd
  rw [hasDerivAt_pi] at hxp
  have d0 := hxp 0
  have d1 := hxp 1
  have d2 := hxp 2
  have d3 := hxp 3
  have m0 := congrFun em 0
  have m1 := congrFun em 1
  simp [Matrix.mulVec, dotProduct, h00, h01, h10, h11, hsym] at m0 m1
  unfold weightEnergy
  have hk := ((((d2.pow 2).const_mul (c.M 0 0)).add (((d2.mul d3).const_mul (2 * c.M 0 1)))).add
    ((d3.pow 2).const_mul (c.M 1 1))).const_mul (1 / 2)
  have hv := (((((d0.pow 2).const_mul (1 / 2 * massMoment d)).add ((d0.mul d1).const_mul (sideShift d))).add
    ((d1.pow 2).const_mul (1 / 2 * sideShift d * sin (Dict.getD d "lam" 0)))).const_mul g).neg
  have hkv := hk.add hv
  have hfun : (fun s => 1 / 2 * (c.M 0 0 * x s 2 ^ 2 + 2 * c.M 0 1 * x s 2 * x s 3 + c.M 1 1 * x s 3 ^ 2) +
      -(g * (1 / 2 * massMoment d * x s 0 ^ 2 + sideShift d * x s 0 * x s 1 +
        1 / 2 * sideShift d * sin (Dict.getD d "lam" 0) * x s 1 ^ 2))) =
      fun s => 1 / 2 * (c.M 0 0 * x s 2 ^ 2 + 2 * c.M 0 1 * (x s 2 * x s 3) + c.M 1 1 * x s 3 ^ 2) +
      -(g * (1 / 2 * massMoment d * x s 0 ^ 2 + sideShift d * (x s 0 * x s 1) +
        1 / 2 * sideShift d * sin (Dict.getD d "lam" 0) * x s 1 ^ 2)) := by
    funext s; ring
  rw [hfun]
  refine hkv.congr_deriv ?_
  rw [e0, e1]
  simp
  linear_combination (x t 2) * m0 + (x t 3) * m1

/-! ## Eigenvalues -/

/-- The roots of a real quadratic with non-negative discriminant are real. -/
theorem quadratic_real (a b c : ℝ) (ha : a ≠ 0) (hD : 0 ≤ b ^ 2 - 4 * a * c) (s : ℂ) (hs : a * s ^ 2 + b * s + c = 0) :
    s.im = 0 := by
  have hre := congrArg Complex.re hs
  have him := congrArg Complex.im hs
  simp [pow_two] at hre him
  by_contra hn
  have h1 : 2 * a * s.re + b = 0 := by
    have : s.im * (2 * a * s.re + b) = 0 := by linear_combination him
    exact (mul_eq_zero.1 this).resolve_left hn
  have h2 : b ^ 2 - 4 * a * c = -(4 * a ^ 2 * s.im ^ 2) := by
    have hb : b = -(2 * a * s.re) := by linarith
    rw [hb] at hre ⊢
    linear_combination (-4 * a) * hre
  have : 0 < 4 * a ^ 2 * s.im ^ 2 := by positivity
  linarith

/-- Eigenvalues at rest are square roots of the roots of a quadratic. -/
theorem standing_quadratic (c : Canon) (g : ℝ) (hM : c.M.det ≠ 0) (l : ℂ) :
    IsEigenvalue (toC (abA c.M c.C1 c.K0 c.K2 0 g)) l ↔
      (c.M.det : ℝ) * (l ^ 2) ^ 2 + ((g * mixed c.M c.K0 : ℝ) : ℂ) * l ^ 2 + ((g ^ 2 * c.K0.det : ℝ) : ℂ) = 0 := by
  rw [C02_eigenvalues_are_roots _ _ _ _ _ _ _ hM]
  change (pencil c 0 g l).det = 0 ↔ _
  rw [pencil_quartic]
  refine iff_of_eq (congrArg (· = 0) ?_)
  simp only [stiffness, mixed, det_fin_two, Matrix.add_apply, Matrix.smul_apply, smul_eq_mul]
  push_cast
  ring

/-- The discriminant for a symmetric positive definite mass matrix and a symmetric stiffness. -/
theorem standing_discriminant (M K : Mat2 ℝ) (hM : M 1 0 = M 0 1) (hK : K 1 0 = K 0 1) (h0 : M 0 0 ≠ 0)
    (hdet : 0 < M.det) : 0 ≤ mixed M K ^ 2 - 4 * M.det * K.det := by
  have hd := hdet
  rw [det_fin_two, hM] at hd
  have key : M 0 0 ^ 2 * (mixed M K ^ 2 - 4 * M.det * K.det) =
      (M 0 0 * (M 0 0 * K 1 1 - M 1 1 * K 0 0) - 2 * M 0 1 * (M 0 0 * K 0 1 - M 0 1 * K 0 0)) ^ 2 +
        4 * (M 0 0 * M 1 1 - M 0 1 * M 0 1) * (M 0 0 * K 0 1 - M 0 1 * K 0 0) ^ 2 := by
    simp only [mixed, det_fin_two, hM, hK]; ring
  have hp : 0 ≤ M 0 0 ^ 2 * (mixed M K ^ 2 - 4 * M.det * K.det) := by rw [key]; positivity
  have h2 : 0 < M 0 0 ^ 2 := by positivity
  exact nonneg_of_mul_nonneg_right hp h2

/-- **C149.** The eigenvalues of a standing bicycle with positive definite mass matrix are real or purely imaginary: it falls or
swings, but does not do both in one mode. -/
theorem C149_real_or_imaginary (d d' : Dict ℝ) (c : Canon) (hd : benchmarkParToCanonical d = (d', .ok c)) (g : ℝ)
    (h0 : 0 < c.M 0 0) (hdet : 0 < c.M.det) (l : ℂ) (hl : IsEigenvalue (toC (abA c.M c.C1 c.K0 c.K2 0 g)) l) :
    l.im = 0 ∨ l.re = 0 := by
  obtain ⟨h10, -, hsym⟩ := steer_row d d' c hd
  rw [standing_quadratic c g hdet.ne'] at hl
  have hD := standing_discriminant c.M c.K0 hsym h10 h0.ne' hdet
  have h := quadratic_real c.M.det (g * mixed c.M c.K0) (g ^ 2 * c.K0.det) hdet.ne'
    (by have := mul_nonneg (sq_nonneg g) hD; linarith) (l ^ 2) hl
  rw [pow_two, Complex.mul_im] at h
  have : l.re * l.im = 0 := by linarith
  exact (mul_eq_zero.1 this).symm

/-- **C149.** They come in pairs of opposite sign. -/
theorem C149_pairs (c : Canon) (g : ℝ) (hM : c.M.det ≠ 0) (l : ℂ) :
    IsEigenvalue (toC (abA c.M c.C1 c.K0 c.K2 0 g)) l ↔ IsEigenvalue (toC (abA c.M c.C1 c.K0 c.K2 0 g)) (-l) := by
  rw [standing_quadratic c g hM, standing_quadratic c g hM, neg_pow_two]

/-- **C149.** For a bicycle with its masses above the ground, all eigenvalues at rest are real, so that nothing swings, exactly
when the determinant of the gravity stiffness is not negative. -/
theorem C149_no_swinging (d d' : Dict ℝ) (c : Canon) (hd : benchmarkParToCanonical d = (d', .ok c)) (g : ℝ) (hg : 0 < g)
    (h0 : 0 < c.M 0 0) (hdet : 0 < c.M.det) (hK : c.K0 0 0 < 0) :
    (∀ l, IsEigenvalue (toC (abA c.M c.C1 c.K0 c.K2 0 g)) l → l.im = 0) ↔ 0 ≤ c.K0.det := by
  obtain ⟨h10, -, hsym⟩ := steer_row d d' c hd
  have hD := standing_discriminant c.M c.K0 hsym h10 h0.ne' hdet
  constructor
  · intro h
    by_contra hn
    push Not at hn
    set a := c.M.det with ha
    set b := g * mixed c.M c.K0 with hb
    set k := g ^ 2 * c.K0.det with hk
    have hkneg : k < 0 := by rw [hk]; exact mul_neg_of_pos_of_neg (by positivity) hn
    have hak : 4 * a * k < 0 := mul_neg_of_pos_of_neg (by positivity) hkneg
    have hDpos : 0 ≤ b ^ 2 - 4 * a * k := by nlinarith [sq_nonneg b]
    have hsq := Real.sq_sqrt hDpos
    set r := √(b ^ 2 - 4 * a * k) with hr
    have hrn : 0 ≤ r := Real.sqrt_nonneg _
    have hrb : -b < r := by
      by_contra hc
      push Not at hc
      have : r ^ 2 ≤ (-b) ^ 2 := pow_le_pow_left₀ hrn hc 2
      nlinarith
    set s := (b + r) / (2 * a) with hs
    have hspos : 0 < s := div_pos (by linarith) (by positivity)
    have hroot : a * s ^ 2 - b * s + k = 0 := by
      have e : 2 * a * s = b + r := by rw [hs]; field_simp
      have : 4 * a * (a * s ^ 2 - b * s + k) = (2 * a * s - b) ^ 2 - (b ^ 2 - 4 * a * k) := by ring
      rw [e, ← hsq] at this
      have h4 : 4 * a * (a * s ^ 2 - b * s + k) = 0 := by rw [this]; ring
      exact (mul_eq_zero.1 h4).resolve_left (by positivity)
    have hev := h (Complex.I * √s) ((standing_quadratic c g hdet.ne' _).2 (by
      have hss : (((√s : ℝ) : ℂ)) ^ 2 = (s : ℂ) := by
        rw [← Complex.ofReal_pow, Real.sq_sqrt hspos.le]
      rw [mul_pow, Complex.I_sq, hss]
      have := congrArg (fun z : ℝ => (z : ℂ)) hroot
      push_cast at this ⊢
      rw [ha, hb, hk] at this
      push_cast at this
      linear_combination this))
    simp at hev
    have := Real.sqrt_pos.2 hspos
    rw [hev] at this
    exact lt_irrefl _ this
  · intro h l hl
    have hri := C149_real_or_imaginary d d' c hd g h0 hdet l hl
    rcases hri with him | hre
    · exact him
    · by_contra hn
      rw [standing_quadratic c g hdet.ne'] at hl
      have e : l ^ 2 = ((-(l.im ^ 2) : ℝ) : ℂ) := by
        apply Complex.ext <;> simp [pow_two, hre]
      rw [e] at hl
      have hl' : c.M.det * (-(l.im ^ 2)) ^ 2 + g * mixed c.M c.K0 * (-(l.im ^ 2)) + g ^ 2 * c.K0.det = 0 := by
        exact_mod_cast hl
      have hmix : mixed c.M c.K0 ≤ 0 := by
        have hdk := h
        rw [det_fin_two, h10] at hdk
        have hdm := hdet
        rw [det_fin_two, hsym] at hdm
        have h1 : 0 ≤ c.K0 0 0 * mixed c.M c.K0 * c.M 0 0 := by
          have : c.K0 0 0 * mixed c.M c.K0 * c.M 0 0 = c.M 0 0 ^ 2 * (c.K0 0 0 * c.K0 1 1 - c.K0 0 1 * c.K0 0 1) +
              (c.M 0 0 * c.K0 0 1 - c.M 0 1 * c.K0 0 0) ^ 2 +
              (c.M 0 0 * c.M 1 1 - c.M 0 1 * c.M 0 1) * c.K0 0 0 ^ 2 := by
            simp only [mixed, h10, hsym]; ring
          rw [this]; positivity
        by_contra hc
        push Not at hc
        have := mul_neg_of_neg_of_pos (mul_neg_of_neg_of_pos hK hc) h0
        linarith
      have hy : 0 < l.im ^ 2 := by positivity
      have t1 : 0 < c.M.det * (-(l.im ^ 2)) ^ 2 := by rw [neg_pow_two]; positivity
      have t2 : 0 ≤ g * mixed c.M c.K0 * (-(l.im ^ 2)) := by
        have := mul_nonneg (mul_nonneg hg.le (neg_nonneg.2 hmix)) hy.le
        linarith
      have t3 : 0 ≤ g ^ 2 * c.K0.det := by positivity
      linarith

/-- non-vacuity of C149: the bicycle of C142, of which nothing swings at rest -/
theorem example_standing : ∃ d', benchmarkParToCanonical steadyDict = (d', .ok steadyCanon) ∧ 0 < steadyCanon.M 0 0 ∧
    0 < steadyCanon.M.det ∧ steadyCanon.K0 0 0 < 0 ∧ 0 ≤ steadyCanon.K0.det ∧ (Bench.ofDict steadyDict).mT ≠ 0 ∧
    (Bench.ofDict steadyDict).mA ≠ 0 ∧ (Bench.ofDict steadyDict).w ≠ 0 := by
  obtain ⟨d', hd⟩ := steady_canonical
  refine ⟨d', hd, by simp [steadyCanon], steady_mass, by simp [steadyCanon]; norm_num, ?_, ?_, ?_, ?_⟩
  · simp only [steadyCanon, det_fin_two]; norm_num
  · simp [Bench.ofDict, steadyDict, Dict.getD, Dict.find?, Bench.mT]; norm_num
  · simp [Bench.ofDict, steadyDict, Dict.getD, Dict.find?, Bench.mA]; norm_num
  · simp [Bench.ofDict, steadyDict, Dict.getD, Dict.find?]

end BP
