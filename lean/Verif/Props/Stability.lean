import Verif.Lemmas.Hurwitz
import Verif.Props.SpeedPlots
import Mathlib.Topology.Order.IntermediateValue
import Mathlib.Analysis.SpecialFunctions.Trigonometric.Arctan

/-!
# C142: the self-stable speeds of a bicycle

For which speeds all eigenvalues of the state matrix have a negative real part.
-/

set_option linter.unusedSimpArgs false

namespace BP

open Real Matrix Spec

/-! ## Specification -/

/-- The coefficient of `s` in `det (A + s B)`. -/
def Spec.mixed (A B : Mat2 ℝ) : ℝ := A 0 0 * B 1 1 + A 1 1 * B 0 0 - A 0 1 * B 1 0 - A 1 0 * B 0 1

/-- Every eigenvalue of the state matrix that `ab_matrix` returns has a negative real part. -/
def Spec.Damped (c : Canon) (v g : ℝ) : Prop :=
  ∀ l : ℂ, IsEigenvalue (toC (abA c.M c.C1 c.K0 c.K2 v g)) l → l.re < 0

/-- The stiffness at speed `v`. -/
noncomputable def Spec.stiffness (c : Canon) (v g : ℝ) : Mat2 ℝ := g • c.K0 + v ^ 2 • c.K2

/-- The conditions of Routh and Hurwitz on the equations of motion `M q'' + v C1 q' + (g K0 + v² K2) q = 0`. -/
def Spec.RouthHurwitz (c : Canon) (v g : ℝ) : Prop :=
  0 < v * mixed c.M c.C1 ∧
  0 < v ^ 2 * c.C1.det + mixed c.M (stiffness c v g) ∧
  0 < v * mixed c.C1 (stiffness c v g) ∧
  0 < (stiffness c v g).det ∧
  c.M.det * (v * mixed c.C1 (stiffness c v g)) ^ 2 + (stiffness c v g).det * (v * mixed c.M c.C1) ^ 2 <
    v * mixed c.M c.C1 * (v ^ 2 * c.C1.det + mixed c.M (stiffness c v g)) * (v * mixed c.C1 (stiffness c v g))

/-! ## The criterion -/

theorem pencil_quartic (c : Canon) (v g : ℝ) (l : ℂ) :
    (pencil c v g l).det = (c.M.det : ℝ) * l ^ 4 + ((v * mixed c.M c.C1 : ℝ) : ℂ) * l ^ 3 +
      ((v ^ 2 * c.C1.det + mixed c.M (stiffness c v g) : ℝ) : ℂ) * l ^ 2 +
      ((v * mixed c.C1 (stiffness c v g) : ℝ) : ℂ) * l + ((stiffness c v g).det : ℝ) := by
  simp only [pencil, toC, mixed, stiffness, det_fin_two, Matrix.add_apply, Matrix.smul_apply, Matrix.map_apply,
    smul_eq_mul]
  push_cast
  ring

/-- **C142.** The bicycle is self-stable at a speed iff five polynomial inequalities in the canonical matrices hold. -/
theorem C142_routh_hurwitz (c : Canon) (v g : ℝ) (hM : 0 < c.M.det) : Damped c v g ↔ RouthHurwitz c v g := by
  have h : Damped c v g ↔ ∀ l : ℂ, (c.M.det : ℝ) * l ^ 4 + ((v * mixed c.M c.C1 : ℝ) : ℂ) * l ^ 3 +
      ((v ^ 2 * c.C1.det + mixed c.M (stiffness c v g) : ℝ) : ℂ) * l ^ 2 +
      ((v * mixed c.C1 (stiffness c v g) : ℝ) : ℂ) * l + ((stiffness c v g).det : ℝ) = 0 → l.re < 0 := by
    unfold Damped
    refine forall_congr' fun l => ?_
    rw [C02_eigenvalues_are_roots _ _ _ _ _ _ _ hM.ne', ← pencil_quartic]
    rfl
  rw [h, hurwitz _ _ _ _ _ hM, RouthHurwitz]

/-- **C142.** No bicycle is self-stable at rest, and none is self-stable both forwards and backwards at one speed. -/
theorem C142_one_direction (c : Canon) (v g : ℝ) (hM : 0 < c.M.det) (h : Damped c v g) :
    v ≠ 0 ∧ ¬ Damped c (-v) g := by
  rw [C142_routh_hurwitz c _ g hM] at h ⊢
  refine ⟨?_, fun h' => ?_⟩
  · rintro rfl
    simpa using h.1
  · have h1 := h.1
    have h2 := h'.1
    linarith

/-! ## Capsize -/

/-- **C142.** The eigenvalue zero (capsize) appears at one speed only: if the state matrix has it at two speeds, they are
equal up to direction, unless the stiffness matrix of gravity is singular. -/
theorem C142_one_capsize_speed (d d' : Dict ℝ) (c : Canon) (hd : benchmarkParToCanonical d = (d', .ok c)) (v v' g : ℝ)
    (hM : c.M.det ≠ 0) (hg : g ≠ 0) (hK : c.K0.det ≠ 0)
    (h : IsEigenvalue (toC (abA c.M c.C1 c.K0 c.K2 v g)) 0) (h' : IsEigenvalue (toC (abA c.M c.C1 c.K0 c.K2 v' g)) 0) :
    v ^ 2 = v' ^ 2 := by
  obtain ⟨_, _, hcol, _⟩ := C03_canonical_structure d d' c hd
  have key : ∀ v : ℝ, IsEigenvalue (toC (abA c.M c.C1 c.K0 c.K2 v g)) 0 →
      g * c.K0.det + v ^ 2 * mixed c.K0 c.K2 = 0 := by
    intro v h
    rw [C02_eigenvalues_are_roots _ _ _ _ _ _ _ hM] at h
    change (pencil c v g 0).det = 0 at h
    rw [pencil_quartic] at h
    have h0 : (stiffness c v g).det = 0 := by
      have h1 : (((stiffness c v g).det : ℝ) : ℂ) = 0 := by simpa using h
      exact_mod_cast h1
    have h1 : (stiffness c v g).det = g * (g * c.K0.det + v ^ 2 * mixed c.K0 c.K2) := by
      simp only [stiffness, mixed, det_fin_two, Matrix.add_apply, Matrix.smul_apply, smul_eq_mul, hcol]
      ring
    rw [h1] at h0
    exact (mul_eq_zero.1 h0).resolve_left hg
  have e1 := key v h
  have e2 := key v' h'
  have hm : mixed c.K0 c.K2 ≠ 0 := by
    intro h0
    rw [h0, mul_zero, add_zero] at e1
    exact (mul_ne_zero hg hK) e1
  have : (v ^ 2 - v' ^ 2) * mixed c.K0 c.K2 = 0 := by linear_combination e1 - e2
  rcases mul_eq_zero.1 this with h0 | h0
  · linarith
  · exact absurd h0 hm

/-! ## How stability is lost -/

/-- **C142.** Between a self-stable and a not self-stable forward speed there is a speed at which an eigenvalue is on the
imaginary axis: stability is lost through the eigenvalue zero or a pair of imaginary ones. -/
theorem C142_lost_on_the_axis (c : Canon) (v v' g : ℝ) (hM : 0 < c.M.det) (hv : 0 < v) (hv' : 0 < v')
    (h : Damped c v g) (h' : ¬ Damped c v' g) :
    ∃ u ∈ Set.uIcc v v', ∃ l : ℂ, l.re = 0 ∧ IsEigenvalue (toC (abA c.M c.C1 c.K0 c.K2 u g)) l := by
  rw [C142_routh_hurwitz c _ g hM] at h h'
  set fa : ℝ → ℝ := fun u => u * mixed c.M c.C1 with hfa
  set fb : ℝ → ℝ := fun u => u ^ 2 * c.C1.det + mixed c.M (stiffness c u g) with hfb
  set fc : ℝ → ℝ := fun u => u * mixed c.C1 (stiffness c u g) with hfc
  set fd : ℝ → ℝ := fun u => (stiffness c u g).det with hfd
  set fh : ℝ → ℝ := fun u => fa u * fb u * fc u - (c.M.det * fc u ^ 2 + fd u * fa u ^ 2) with hfh
  have ca : Continuous fa := by rw [hfa]; fun_prop
  have cb : Continuous fb := by
    simp only [hfb, mixed, stiffness, Matrix.add_apply, Matrix.smul_apply, smul_eq_mul]; fun_prop
  have cc : Continuous fc := by
    simp only [hfc, mixed, stiffness, Matrix.add_apply, Matrix.smul_apply, smul_eq_mul]; fun_prop
  have cd : Continuous fd := by
    simp only [hfd, det_fin_two, stiffness, Matrix.add_apply, Matrix.smul_apply, smul_eq_mul]; fun_prop
  have ch : Continuous fh := by rw [hfh]; fun_prop
  obtain ⟨ha, hb, hc, hd, hh⟩ := h
  have hm : 0 < mixed c.M c.C1 := (pos_iff_pos_of_mul_pos ha).1 hv
  let m : ℝ → ℝ := fun u => min (min (fb u) (fc u)) (min (fd u) (fh u))
  have cm : Continuous m := (cb.min cc).min (cd.min ch)
  have hm1 : 0 < m v := lt_min (lt_min hb hc) (lt_min hd (sub_pos.2 hh))
  have hm2 : m v' ≤ 0 := by
    by_contra hn
    push Not at hn
    obtain ⟨h12, h34⟩ := lt_min_iff.1 hn
    obtain ⟨h1, h2⟩ := lt_min_iff.1 h12
    obtain ⟨h3, h4⟩ := lt_min_iff.1 h34
    exact h' ⟨mul_pos hv' hm, h1, h2, h3, sub_pos.1 h4⟩
  obtain ⟨u, hu, hu0⟩ : (0 : ℝ) ∈ m '' Set.uIcc v v' :=
    intermediate_value_uIcc cm.continuousOn (Set.mem_uIcc.2 (Or.inr ⟨hm2, hm1.le⟩))
  refine ⟨u, hu, ?_⟩
  have hupos : 0 < u := lt_of_lt_of_le (lt_min hv hv') hu.1
  have hau : 0 < fa u := mul_pos hupos hm
  have hmin : ∀ x : ℝ, m u ≤ x → 0 ≤ x := fun x hx => by rw [← hu0]; exact hx
  have gb : 0 ≤ fb u := hmin _ ((min_le_left _ _).trans (min_le_left _ _))
  have gc : 0 ≤ fc u := hmin _ ((min_le_left _ _).trans (min_le_right _ _))
  have gd : 0 ≤ fd u := hmin _ ((min_le_right _ _).trans (min_le_left _ _))
  have gh : 0 ≤ fh u := hmin _ ((min_le_right _ _).trans (min_le_right _ _))
  have root : ∀ l : ℂ, (c.M.det : ℝ) * l ^ 4 + ((fa u : ℝ) : ℂ) * l ^ 3 + ((fb u : ℝ) : ℂ) * l ^ 2 +
      ((fc u : ℝ) : ℂ) * l + (fd u : ℝ) = 0 → IsEigenvalue (toC (abA c.M c.C1 c.K0 c.K2 u g)) l := by
    intro l hl
    rw [C02_eigenvalues_are_roots _ _ _ _ _ _ _ hM.ne']
    change (pencil c u g l).det = 0
    rw [pencil_quartic]
    exact hl
  by_cases hd0 : fd u = 0
  · refine ⟨0, rfl, root 0 ?_⟩
    simp [hd0]
  · have gd' : 0 < fd u := lt_of_le_of_ne gd (Ne.symm hd0)
    have hfa2 : 0 < fd u * fa u ^ 2 := by positivity
    have habc : 0 < fa u * fb u * fc u := by
      have : 0 ≤ c.M.det * fc u ^ 2 := by positivity
      have h4 : 0 ≤ fa u * fb u * fc u - (c.M.det * fc u ^ 2 + fd u * fa u ^ 2) := gh
      linarith
    have gc' : 0 < fc u := by
      refine lt_of_le_of_ne gc fun h0 => ?_
      rw [← h0, mul_zero] at habc
      exact lt_irrefl _ habc
    have gb' : 0 < fb u := by
      refine lt_of_le_of_ne gb fun h0 => ?_
      rw [← h0, mul_zero, zero_mul] at habc
      exact lt_irrefl _ habc
    have hh0 : fh u = 0 := by
      rcases min_choice (min (fb u) (fc u)) (min (fd u) (fh u)) with e | e
      · exfalso
        have : 0 < min (fb u) (fc u) := lt_min gb' gc'
        have h0 : m u = min (fb u) (fc u) := e
        linarith
      · have h0 : m u = min (fd u) (fh u) := e
        rcases min_choice (fd u) (fh u) with e' | e'
        · exfalso; rw [e'] at h0; linarith
        · rw [e'] at h0; linarith
    have hq : 0 ≤ fc u / fa u := by positivity
    have hs := Real.mul_self_sqrt hq
    set s := √(fc u / fa u) with hsdef
    have hs2 : s ^ 2 = fc u / fa u := by rw [pow_two]; exact hs
    refine ⟨⟨0, s⟩, rfl, root _ ?_⟩
    have h1 : fa u * s ^ 2 = fc u := by rw [hs2]; field_simp
    have h2 : c.M.det * s ^ 4 - fb u * s ^ 2 + fd u = 0 := by
      have h4 : s ^ 4 = (fc u / fa u) ^ 2 := by rw [← hs2]; ring
      rw [h4, hs2]
      have h5 : fa u * fb u * fc u - (c.M.det * fc u ^ 2 + fd u * fa u ^ 2) = 0 := hh0
      field_simp
      linear_combination -h5
    have hI : (⟨0, s⟩ : ℂ) = Complex.I * s := by apply Complex.ext <;> simp
    rw [hI]
    have hI2 := Complex.I_sq
    have c1 : ((fa u : ℝ) : ℂ) * (s : ℂ) ^ 2 = (fc u : ℝ) := by exact_mod_cast h1
    have c2 : ((c.M.det : ℝ) : ℂ) * (s : ℂ) ^ 4 - (fb u : ℝ) * (s : ℂ) ^ 2 + (fd u : ℝ) = 0 := by exact_mod_cast h2
    have e2 : (Complex.I * s) ^ 2 = -(s : ℂ) ^ 2 := by rw [mul_pow, hI2]; ring
    have e3 : (Complex.I * s) ^ 3 = -(Complex.I * (s : ℂ) ^ 3) := by
      rw [pow_succ, e2]; ring
    have e4 : (Complex.I * s) ^ 4 = (s : ℂ) ^ 4 := by
      have : (Complex.I * (s : ℂ)) ^ 4 = ((Complex.I * s) ^ 2) ^ 2 := by ring
      rw [this, e2]; ring
    rw [e2, e3, e4]
    linear_combination c2 - Complex.I * s * c1

/-! ## How many ranges of speeds -/

/-- The conditions in terms of the square of the speed: all but one are linear in it and the last is quadratic. -/
theorem routh_square (c : Canon) (g : ℝ) (hcol : ∀ i, c.K2 i 0 = 0) (v : ℝ) (hv : 0 < v) :
    RouthHurwitz c v g ↔ 0 < mixed c.M c.C1 ∧
      0 < g * mixed c.M c.K0 + (c.C1.det + mixed c.M c.K2) * v ^ 2 ∧
      0 < g * mixed c.C1 c.K0 + mixed c.C1 c.K2 * v ^ 2 ∧
      0 < g ^ 2 * c.K0.det + g * mixed c.K0 c.K2 * v ^ 2 ∧
      0 < mixed c.M c.C1 * (g * mixed c.M c.K0 + (c.C1.det + mixed c.M c.K2) * v ^ 2) *
          (g * mixed c.C1 c.K0 + mixed c.C1 c.K2 * v ^ 2) -
        (c.M.det * (g * mixed c.C1 c.K0 + mixed c.C1 c.K2 * v ^ 2) ^ 2 +
          (g ^ 2 * c.K0.det + g * mixed c.K0 c.K2 * v ^ 2) * mixed c.M c.C1 ^ 2) := by
  have eB : v ^ 2 * c.C1.det + mixed c.M (stiffness c v g) =
      g * mixed c.M c.K0 + (c.C1.det + mixed c.M c.K2) * v ^ 2 := by
    simp only [mixed, stiffness, Matrix.add_apply, Matrix.smul_apply, smul_eq_mul]; ring
  have eC : mixed c.C1 (stiffness c v g) = g * mixed c.C1 c.K0 + mixed c.C1 c.K2 * v ^ 2 := by
    simp only [mixed, stiffness, Matrix.add_apply, Matrix.smul_apply, smul_eq_mul]; ring
  have eD : (stiffness c v g).det = g ^ 2 * c.K0.det + g * mixed c.K0 c.K2 * v ^ 2 := by
    simp only [mixed, stiffness, det_fin_two, Matrix.add_apply, Matrix.smul_apply, smul_eq_mul, hcol]
    ring
  rw [RouthHurwitz, eB, eC, eD, mul_pos_iff_of_pos_left hv, mul_pos_iff_of_pos_left hv]
  refine and_congr Iff.rfl (and_congr Iff.rfl (and_congr Iff.rfl (and_congr Iff.rfl ?_)))
  have hv2 : 0 < v ^ 2 := by positivity
  rw [← sub_pos]
  refine Iff.trans (iff_of_eq (congrArg _ ?_)) (mul_pos_iff_of_pos_left hv2)
  ring

/-- A quadratic does not change its sign three times. -/
theorem quadratic_signs (x y z u1 u2 u3 u4 : ℝ) (q12 : u1 < u2) (q23 : u2 < u3) (q34 : u3 < u4)
    (r1 : 0 < x * u1 ^ 2 + y * u1 + z) (m2 : x * u2 ^ 2 + y * u2 + z ≤ 0) (r3 : 0 < x * u3 ^ 2 + y * u3 + z)
    (m4 : x * u4 ^ 2 + y * u4 + z ≤ 0) : False := by
  have conv : ∀ t u w : ℝ,
      (w - t) * (x * u ^ 2 + y * u + z) = (w - u) * (x * t ^ 2 + y * t + z) + (u - t) * (x * w ^ 2 + y * w + z) -
        x * ((w - u) * (u - t) * (w - t)) := by intro t u w; ring
  rcases le_total 0 x with hx0 | hx0
  · have e := conv u2 u3 u4
    have f1 : 0 < (u4 - u2) * (x * u3 ^ 2 + y * u3 + z) := mul_pos (by linarith) r3
    have f2 : (u4 - u3) * (x * u2 ^ 2 + y * u2 + z) ≤ 0 := mul_nonpos_of_nonneg_of_nonpos (by linarith) m2
    have f3 : (u3 - u2) * (x * u4 ^ 2 + y * u4 + z) ≤ 0 := mul_nonpos_of_nonneg_of_nonpos (by linarith) m4
    have f4 : 0 ≤ x * ((u4 - u3) * (u3 - u2) * (u4 - u2)) :=
      mul_nonneg hx0 (mul_nonneg (mul_nonneg (by linarith) (by linarith)) (by linarith))
    linarith
  · have e := conv u1 u2 u3
    have f1 : (u3 - u1) * (x * u2 ^ 2 + y * u2 + z) ≤ 0 := mul_nonpos_of_nonneg_of_nonpos (by linarith) m2
    have f2 : 0 < (u3 - u2) * (x * u1 ^ 2 + y * u1 + z) := mul_pos (by linarith) r1
    have f3 : 0 < (u2 - u1) * (x * u3 ^ 2 + y * u3 + z) := mul_pos (by linarith) r3
    have f4 : x * ((u3 - u2) * (u2 - u1) * (u3 - u1)) ≤ 0 :=
      mul_nonpos_of_nonpos_of_nonneg hx0 (mul_nonneg (mul_nonneg (by linarith) (by linarith)) (by linarith))
    linarith

/-- **C142.** The self-stable forward speeds make up at most two ranges: among five increasing forward speeds the first,
third and fifth cannot be self-stable while the second and fourth are not. -/
theorem C142_at_most_two_ranges (d d' : Dict ℝ) (c : Canon) (hd : benchmarkParToCanonical d = (d', .ok c)) (g : ℝ)
    (hM : 0 < c.M.det) (v1 v2 v3 v4 v5 : ℝ) (h0 : 0 < v1) (h12 : v1 < v2) (h23 : v2 < v3) (h34 : v3 < v4) (h45 : v4 < v5)
    (s1 : Damped c v1 g) (s3 : Damped c v3 g) (s5 : Damped c v5 g) : Damped c v2 g ∨ Damped c v4 g := by
  obtain ⟨_, _, hcol, _⟩ := C03_canonical_structure d d' c hd
  rw [C142_routh_hurwitz c _ g hM] at s1 s3 s5
  rw [C142_routh_hurwitz c v2 g hM, C142_routh_hurwitz c v4 g hM]
  have hcond := fun v (hv : 0 < v) => routh_square c g hcol v hv
  set a := mixed c.M c.C1 with ha
  set b0 := g * mixed c.M c.K0 with hb0
  set b1 := c.C1.det + mixed c.M c.K2 with hb1
  set c0 := g * mixed c.C1 c.K0 with hc0
  set c1 := mixed c.C1 c.K2 with hc1
  set d0 := g ^ 2 * c.K0.det with hd0
  set d1 := g * mixed c.K0 c.K2 with hd1
  let Q : ℝ → ℝ := fun u => a * (b0 + b1 * u) * (c0 + c1 * u) -
    (c.M.det * (c0 + c1 * u) ^ 2 + (d0 + d1 * u) * a ^ 2)
  have p2 : 0 < v2 := h0.trans h12
  have p3 : 0 < v3 := p2.trans h23
  have p4 : 0 < v4 := p3.trans h34
  have p5 : 0 < v5 := p4.trans h45
  rw [hcond v1 h0] at s1
  rw [hcond v3 p3] at s3
  rw [hcond v5 p5] at s5
  rw [hcond v2 p2, hcond v4 p4]
  have q12 : v1 ^ 2 < v2 ^ 2 := by gcongr
  have q23 : v2 ^ 2 < v3 ^ 2 := by gcongr
  have q34 : v3 ^ 2 < v4 ^ 2 := by gcongr
  have q45 : v4 ^ 2 < v5 ^ 2 := by gcongr
  obtain ⟨ra, rb1, rc1, rd1, rq1⟩ := s1
  obtain ⟨-, rb3, rc3, rd3, rq3⟩ := s3
  obtain ⟨-, rb5, rc5, rd5, rq5⟩ := s5
  -- a function linear in u is positive between two positive values
  have lin : ∀ (x y u w z : ℝ), u < w → w < z → 0 < x + y * u → 0 < x + y * z → 0 < x + y * w := by
    intro x y u w z h1 h2 h3 h4
    have h5 := mul_pos (sub_pos.2 h2) h3
    have h6 := mul_pos (sub_pos.2 h1) h4
    by_contra hn
    push Not at hn
    have h7 : (z - u) * (x + y * w) ≤ 0 := mul_nonpos_of_nonneg_of_nonpos (by linarith) hn
    nlinarith
  have hB2 := lin b0 b1 _ _ _ q12 q23 rb1 rb3
  have hC2 := lin c0 c1 _ _ _ q12 q23 rc1 rc3
  have hD2 := lin d0 d1 _ _ _ q12 q23 rd1 rd3
  have hB4 := lin b0 b1 _ _ _ q34 q45 rb3 rb5
  have hC4 := lin c0 c1 _ _ _ q34 q45 rc3 rc5
  have hD4 := lin d0 d1 _ _ _ q34 q45 rd3 rd5
  by_contra hn
  push Not at hn
  obtain ⟨n2, n4⟩ := hn
  have m2 : Q (v2 ^ 2) ≤ 0 := n2 ra hB2 hC2 hD2
  have m4 : Q (v4 ^ 2) ≤ 0 := n4 ra hB4 hC4 hD4
  -- Q is quadratic
  set x := a * b1 * c1 - c.M.det * c1 ^ 2 with hx
  set y := a * (b0 * c1 + b1 * c0) - 2 * c.M.det * c0 * c1 - d1 * a ^ 2 with hy
  set z := a * b0 * c0 - c.M.det * c0 ^ 2 - d0 * a ^ 2 with hz
  have hQ : ∀ u, Q u = x * u ^ 2 + y * u + z := by
    intro u; simp only [Q, hx, hy, hz]; ring
  change 0 < Q (v1 ^ 2) at rq1
  change 0 < Q (v3 ^ 2) at rq3
  rw [hQ] at rq1 rq3 m2 m4
  generalize v1 ^ 2 = u1 at *
  generalize v2 ^ 2 = u2 at *
  generalize v3 ^ 2 = u3 at *
  generalize v4 ^ 2 = u4 at *
  exact quadratic_signs x y z _ _ _ _ q12 q23 q34 rq1 m2 rq3 m4

/-! ## A bicycle that is self-stable between about 5.3 and 7.7 m/s -/

/-- The parameters of a bicycle with its rider; the steer axis tilt has tangent 5/12. -/
noncomputable def steadyDict : Dict ℝ :=
  [("w", 1), ("c", 7 / 100), ("lam", arctan (5 / 12)), ("rR", 1 / 3), ("mR", 3), ("IRxx", 9 / 100), ("IRyy", 3 / 20),
   ("xB", 29 / 100), ("zB", -11 / 10), ("mB", 82), ("IBxx", 11), ("IBxz", -2), ("IBzz", 3),
   ("xH", 9 / 10), ("zH", -3 / 4), ("mH", 3), ("IHxx", 1 / 4), ("IHxz", -7 / 100), ("IHzz", 1 / 10),
   ("rF", 1 / 3), ("mF", 2), ("IFxx", 9 / 100), ("IFyy", 3 / 20)]

/-- Its canonical matrices. -/
noncomputable def steadyCanon : Canon :=
  ⟨!![81283 / 720, 12489089 / 5850000; 12489089 / 5850000, 3469598453 / 9506250000],
   !![0, 40657 / 1300; -1539 / 3250, 16964249 / 10562500],
   !![-5647 / 60, -230299 / 97500; -230299 / 97500, -230299 / 253500],
   !![0, 5701 / 65; 0, 247174 / 105625]⟩

theorem steady_sqrt : √(1 + (5 / 12 : ℝ) ^ 2) = 13 / 12 := by
  rw [show (1 + (5 / 12 : ℝ) ^ 2) = (13 / 12) ^ 2 by norm_num]
  exact Real.sqrt_sq (by norm_num)

theorem steady_cos : cos (arctan (5 / 12)) = 12 / 13 := by
  rw [Real.cos_arctan, steady_sqrt]; norm_num

theorem steady_sin : sin (arctan (5 / 12)) = 5 / 13 := by
  rw [Real.sin_arctan, steady_sqrt]; norm_num

theorem steady_canonical : ∃ d', benchmarkParToCanonical steadyDict = (d', .ok steadyCanon) := by
  have h := canonical_of_keys steadyDict (by
    intro key hk
    simp only [canonKeys, canonKeysBefore, canonKeysAfter, List.cons_append, List.nil_append,
      List.mem_cons, List.not_mem_nil, or_false] at hk
    rcases hk with h | h | h | h | h | h | h | h | h | h | h | h | h | h | h | h | h | h | h | h | h | h | h <;>
      subst h <;> simp [steadyDict, Dict.has, Dict.find?])
  have hb : Bench.ofDict steadyDict = { w := 1, c := 7 / 100, lam := arctan (5 / 12), rR := 1 / 3, mR := 3, IRxx := 9 / 100, IRyy := 3 / 20, xB := 29 / 100, zB := -11 / 10, mB := 82, IBxx := 11, IBxz := -2, IBzz := 3, xH := 9 / 10, zH := -3 / 4, mH := 3, IHxx := 1 / 4, IHxz := -7 / 100, IHzz := 1 / 10, rF := 1 / 3, mF := 2, IFxx := 9 / 100, IFyy := 3 / 20 } := by
    simp [Bench.ofDict, steadyDict, Dict.getD, Dict.find?]
  suffices hcanon : (Bench.ofDict steadyDict).canon = steadyCanon by
    rw [hcanon] at h
    exact ⟨_, h⟩
  rw [hb]
  unfold Bench.canon steadyCanon
  congr 1
  · simp only [Bench.M, Bench.ITxx, Bench.IAlx, Bench.IAll, Bench.IAlz, Bench.ITxz, Bench.ITzz, Bench.mu, Bench.uA,
      Bench.xA, Bench.zA, Bench.mA, Bench.IAxx, Bench.IAxz, Bench.IAzz, Bench.IRzz, Bench.IFzz, steady_cos, steady_sin]
    norm_num
  · simp only [Bench.C1, Bench.ITxz, Bench.ITzz, Bench.IAlz, Bench.mu, Bench.uA, Bench.SA, Bench.ST, Bench.SR, Bench.SF,
      Bench.xA, Bench.zA, Bench.mA, Bench.IAxz, Bench.IAzz, Bench.IRzz, Bench.IFzz, Bench.mT, Bench.xT, Bench.zT,
      steady_cos, steady_sin]
    norm_num
  · simp only [Bench.K0, Bench.mu, Bench.uA, Bench.SA, Bench.xA, Bench.zA, Bench.mA, Bench.mT, Bench.xT, Bench.zT,
      steady_cos, steady_sin]
    norm_num
  · simp only [Bench.K2, Bench.mu, Bench.uA, Bench.SA, Bench.ST, Bench.SR, Bench.SF, Bench.xA, Bench.zA, Bench.mA,
      Bench.mT, Bench.xT, Bench.zT, steady_cos, steady_sin]
    norm_num

theorem steady_mass : 0 < steadyCanon.M.det := by
  simp only [steadyCanon, det_fin_two]; norm_num

/-- The example bicycle rides upright by itself at all speeds from 5.5 to 7.5 m/s. -/
theorem steady_damped (v : ℝ) (h1 : 11 / 2 ≤ v) (h2 : v ≤ 15 / 2) : Damped steadyCanon v (981 / 100) := by
  have hv : 0 < v := by linarith
  rw [C142_routh_hurwitz _ _ _ steady_mass, routh_square _ _ (by intro i; fin_cases i <;> simp [steadyCanon]) v hv]
  have hu1 : (121 / 4 : ℝ) ≤ v ^ 2 := by nlinarith
  have hu2 : v ^ 2 ≤ 225 / 4 := by nlinarith
  generalize v ^ 2 = u at *
  have ea : mixed steadyCanon.M steadyCanon.C1 = 4694575017 / 40625000 := by
    simp [mixed, steadyCanon]; norm_num
  have eb0 : mixed steadyCanon.M steadyCanon.K0 * (981 / 100) = -101088386065607 / 81250000000 := by
    simp [mixed, steadyCanon]; norm_num
  have eb1 : steadyCanon.C1.det + mixed steadyCanon.M steadyCanon.K2 = 11628775297 / 126750000 := by
    simp [mixed, steadyCanon, det_fin_two]; norm_num
  have ec0 : mixed steadyCanon.C1 steadyCanon.K0 * (981 / 100) = -124988561559 / 162500000 := by
    simp [mixed, steadyCanon]; norm_num
  have ec1 : mixed steadyCanon.C1 steadyCanon.K2 = 8773839 / 211250 := by
    simp [mixed, steadyCanon]; norm_num
  have ed0 : steadyCanon.K0.det * (981 / 100) ^ 2 = 20310465937825899 / 2640625000000 := by
    simp [steadyCanon, det_fin_two]; norm_num
  have ed1 : mixed steadyCanon.K0 steadyCanon.K2 * (981 / 100) = -27094232133 / 211250000 := by
    simp [mixed, steadyCanon]; norm_num
  have ee : steadyCanon.M.det = 209019918537679 / 5703750000000 := by
    simp [steadyCanon, det_fin_two]; norm_num
  rw [mul_comm (981 / 100 : ℝ) (mixed steadyCanon.M steadyCanon.K0), mul_comm (981 / 100 : ℝ) (mixed steadyCanon.C1 steadyCanon.K0),
    mul_comm ((981 / 100 : ℝ) ^ 2) steadyCanon.K0.det, mul_comm (981 / 100 : ℝ) (mixed steadyCanon.K0 steadyCanon.K2), ea, eb0, eb1, ec0, ec1, ed0, ed1, ee]
  refine ⟨by norm_num, by linarith, by linarith, by linarith, ?_⟩
  have huu : 121 / 4 * u ≤ u ^ 2 := by nlinarith
  nlinarith

theorem steady_stiffness (v : ℝ) : (stiffness steadyCanon v (981 / 100)).det =
    20310465937825899 / 2640625000000 - 27094232133 / 211250000 * v ^ 2 := by
  simp only [stiffness, steadyCanon, det_fin_two, Matrix.add_apply, Matrix.smul_apply, smul_eq_mul, Matrix.of_apply,
    Matrix.cons_val', Matrix.cons_val_zero, Matrix.cons_val_one, Matrix.cons_val_fin_one]
  ring

/-- It falls over at 10 m/s. -/
theorem steady_too_fast : ¬ Damped steadyCanon 10 (981 / 100) := by
  rw [C142_routh_hurwitz _ _ _ steady_mass]
  intro h
  have := h.2.2.2.1
  rw [steady_stiffness] at this
  norm_num at this

/-- non-vacuity of C142_routh_hurwitz and C142_one_direction: the example bicycle is self-stable at 6 m/s -/
example : 0 < steadyCanon.M.det ∧ Damped steadyCanon 6 (981 / 100) ∧ ¬ Damped steadyCanon (-6) (981 / 100) :=
  ⟨steady_mass, steady_damped 6 (by norm_num) (by norm_num),
    (C142_one_direction _ _ _ steady_mass (steady_damped 6 (by norm_num) (by norm_num))).2⟩

/-- non-vacuity of C142_lost_on_the_axis: between 6 and 10 m/s -/
example : ∃ u ∈ Set.uIcc (6 : ℝ) 10, ∃ l : ℂ, l.re = 0 ∧
    IsEigenvalue (toC (abA steadyCanon.M steadyCanon.C1 steadyCanon.K0 steadyCanon.K2 u (981 / 100))) l :=
  C142_lost_on_the_axis steadyCanon 6 10 (981 / 100) steady_mass (by norm_num) (by norm_num)
    (steady_damped 6 (by norm_num) (by norm_num)) steady_too_fast

/-- non-vacuity of C142_one_capsize_speed: the example bicycle has the eigenvalue zero at some speed -/
example : steadyCanon.M.det ≠ 0 ∧ steadyCanon.K0.det ≠ 0 ∧ ∃ v : ℝ,
    IsEigenvalue (toC (abA steadyCanon.M steadyCanon.C1 steadyCanon.K0 steadyCanon.K2 v (981 / 100))) 0 := by
  refine ⟨steady_mass.ne', by simp only [steadyCanon, det_fin_two]; norm_num, ?_⟩
  have hx : (0 : ℝ) ≤ 20310465937825899 / 2640625000000 / (27094232133 / 211250000) := by norm_num
  refine ⟨√(20310465937825899 / 2640625000000 / (27094232133 / 211250000)), ?_⟩
  rw [C02_eigenvalues_are_roots _ _ _ _ _ _ _ steady_mass.ne']
  change (pencil steadyCanon _ (981 / 100) 0).det = 0
  rw [pencil_quartic, steady_stiffness, Real.sq_sqrt hx]
  norm_num

/-- non-vacuity of C142_at_most_two_ranges: five speeds, the first, third and fifth self-stable -/
example : (∃ d', benchmarkParToCanonical steadyDict = (d', .ok steadyCanon)) ∧ Damped steadyCanon (11 / 2) (981 / 100) ∧
    Damped steadyCanon (13 / 2) (981 / 100) ∧ Damped steadyCanon (15 / 2) (981 / 100) :=
  ⟨steady_canonical, steady_damped _ (by norm_num) (by norm_num), steady_damped _ (by norm_num) (by norm_num),
    steady_damped _ (by norm_num) (by norm_num)⟩

end BP
