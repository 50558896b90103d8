import Verif.Props.Uncertain
import Verif.Props.Geometry
import Mathlib.Analysis.SpecialFunctions.Trigonometric.InverseDeriv
import Mathlib.Data.Fintype.Option
import Mathlib.Algebra.BigOperators.Option

/-!
# C123: the uncertainty of the steer axis tilt
-/

set_option linter.unusedSimpArgs false

namespace BP

open Matrix Spec

variable {ι : Type}

/-- **C123.** The docstring says "float or ufloat", but a plain float as any of the five arguments
raises `AttributeError`. -/
theorem C123_float_raises [Fintype ι] (newton : (ℝ → ℝ) → ℝ → Except PyErr ℝ)
    (rF rR a b c : FloatOrU ι)
    (h : (∃ x, rF = .float x) ∨ (∃ x, rR = .float x) ∨ (∃ x, a = .float x) ∨ (∃ x, b = .float x) ∨
      ∃ x, c = .float x) : lambdaFromAbcU newton rF rR a b c = .error .attributeError := by
  cases rF <;> cases rR <;> cases a <;> cases b <;> cases c <;>
    simp [lambdaFromAbcU, FloatOrU.nominal, Except.bind] at h ⊢

/-- **C123.** With uncertainties on all five, the nominal value is the tilt computed from the
nominal values (C10), and the same calls fail. -/
theorem C123_nominal [Fintype ι] (newton : (ℝ → ℝ) → ℝ → Except PyErr ℝ) (rF rR a b c : UNum ι) :
    (lambdaFromAbcU newton (.u rF) (.u rR) (.u a) (.u b) (.u c)).map UNum.nom =
      lambdaFromAbc newton rF.nom rR.nom a.nom b.nom c.nom := by
  unfold lambdaFromAbcU lambdaFromAbc
  simp only [FloatOrU.nominal, Except.bind]
  have : (PyNum.atan (FloatOrU.num (.u c) / (FloatOrU.num (.u a) + FloatOrU.num (.u b))) : UNum ι).nom =
      lamGuess a.nom b.nom c.nom := rfl
  rw [this]
  cases newton _ _ <;> rfl

theorem std_nonneg [Fintype ι] (u : UNum ι) : 0 ≤ u.std := Real.sqrt_nonneg _

theorem lambda_ok [Fintype ι] {newton : (ℝ → ℝ) → ℝ → Except PyErr ℝ} {rF rR a b c : UNum ι}
    {l : UNum (Option ι)}
    (h : lambdaFromAbcU newton (.u rF) (.u rR) (.u a) (.u b) (.u c) = .ok l) :
    l = UNum.fresh l.nom (PyNum.atan (c / (a + b)) : UNum ι).std ∧
      newton (fun lam => lamEquality lam rF.nom rR.nom a.nom b.nom c.nom)
        (lamGuess a.nom b.nom c.nom) = .ok l.nom := by
  have hn := C123_nominal newton rF rR a b c
  rw [h] at hn
  refine ⟨?_, hn.symm⟩
  unfold lambdaFromAbcU at h
  simp only [FloatOrU.nominal, Except.bind] at h
  cases hr : newton (fun lam => lamEquality lam rF.nom rR.nom a.nom b.nom c.nom)
      (PyNum.atan (FloatOrU.num (.u c) / (FloatOrU.num (.u a) + FloatOrU.num (.u b))) : UNum ι).nom with
  | error e => rw [hr] at h; cases h
  | ok x =>
    rw [hr] at h
    cases h
    rfl

/-- **C123.** What is returned: a number that is independent of everything measured, with the
standard deviation of `arctan(c/(a + b))`, whatever the wheel radii. -/
theorem C123_std [Fintype ι] (newton : (ℝ → ℝ) → ℝ → Except PyErr ℝ) (rF rR a b c : UNum ι)
    (l : UNum (Option ι)) (hab : a.nom + b.nom ≠ 0)
    (h : lambdaFromAbcU newton (.u rF) (.u rR) (.u a) (.u b) (.u c) = .ok l) :
    (∀ i, l.lin (some i) = 0) ∧
    l.std = √(∑ i, ((a.nom + b.nom) * c.lin i - c.nom * (a.lin i + b.lin i)) ^ 2) /
      ((a.nom + b.nom) ^ 2 + c.nom ^ 2) := by
  obtain ⟨hl, -⟩ := lambda_ok h
  rw [hl]
  refine ⟨fun i => rfl, ?_⟩
  have e1 : (UNum.fresh l.nom (PyNum.atan (c / (a + b)) : UNum ι).std : UNum (Option ι)).std =
      (PyNum.atan (c / (a + b)) : UNum ι).std := by
    unfold UNum.std
    rw [Fintype.sum_option]
    simp only [UNum.fresh, Option.elim, ne_eq, OfNat.ofNat_ne_zero, not_false_eq_true, zero_pow,
      Finset.sum_const_zero, add_zero]
    rw [Real.sqrt_sq (Real.sqrt_nonneg _)]
  rw [e1]
  have hR : 0 < (a.nom + b.nom) ^ 2 + c.nom ^ 2 := by positivity
  have hlin : ∀ i, (PyNum.atan (c / (a + b)) : UNum ι).lin i =
      ((a.nom + b.nom) * c.lin i - c.nom * (a.lin i + b.lin i)) /
        ((a.nom + b.nom) ^ 2 + c.nom ^ 2) := by
    intro i
    show 1 / (1 + (c.nom / (a.nom + b.nom)) ^ 2) *
      ((c.lin i * (a.nom + b.nom) - c.nom * (a.lin i + b.lin i)) / (a.nom + b.nom) ^ 2) = _
    field_simp
  unfold UNum.std
  simp only [hlin, div_pow]
  rw [← Finset.sum_div, Real.sqrt_div (Finset.sum_nonneg fun i _ => sq_nonneg _),
    Real.sqrt_sq hR.le]

/-! ## The correct first-order uncertainty -/

variable [DecidableEq ι]

/-- Quantities represented by five numbers with uncertainties, and the tilt `L` that the true
values determine, represented by `l`. -/
structure Spec.TrueTilt (rF rR a b c l : UNum ι) (FrF FrR Fa Fb Fc L : (ι → ℝ) → ℝ) : Prop where
  rF : Tracks FrF rF
  rR : Tracks FrR rR
  a : Tracks Fa a
  b : Tracks Fb b
  c : Tracks Fc c
  l : Tracks L l
  solves : ∀ i, ∀ᶠ t in nhds (0 : ℝ), lamEquality (L (Pi.single i t)) (FrF (Pi.single i t))
    (FrR (Pi.single i t)) (Fa (Pi.single i t)) (Fb (Pi.single i t)) (Fc (Pi.single i t)) = 0

/-- **C123.** The derivative of the true tilt. -/
theorem C123_true_derivative {rF rR a b c l : UNum ι} {FrF FrR Fa Fb Fc L : (ι → ℝ) → ℝ}
    (h : TrueTilt rF rR a b c l FrF FrR Fa Fb Fc L) (hab : a.nom + b.nom ≠ 0) (i : ι) :
    ((a.nom + b.nom) * Real.cos l.nom + c.nom * Real.sin l.nom) * l.lin i =
      rF.lin i - rR.lin i + c.lin i * Real.cos l.nom - (a.lin i + b.lin i) * Real.sin l.nom := by
  have hT := (((h.a.add h.b).mul h.l.sin).sub ((h.rF.sub h.rR).add (h.c.mul h.l.cos))).2 i
  have hab' : ∀ᶠ t in nhds (0 : ℝ), Fa (Pi.single i t) + Fb (Pi.single i t) ≠ 0 := by
    have hc : ContinuousAt (fun t : ℝ => Fa (Pi.single i t) + Fb (Pi.single i t)) 0 :=
      ((h.a.add h.b).2 i).continuousAt
    refine hc.eventually_ne ?_
    rw [Tracks.at_zero h.a, Tracks.at_zero h.b]
    exact hab
  have h0 : (fun t : ℝ => (Fa (Pi.single i t) + Fb (Pi.single i t)) * Real.sin (L (Pi.single i t)) -
      (FrF (Pi.single i t) - FrR (Pi.single i t) + Fc (Pi.single i t) *
        Real.cos (L (Pi.single i t)))) =ᶠ[nhds 0] fun _ => 0 := by
    filter_upwards [h.solves i, hab'] with t h1 h2
    rw [sub_eq_zero]
    exact (lamEquality_zero_iff _ _ _ _ _ _ h2).1 h1
  have hu := (hT.congr_of_eventuallyEq h0.symm).unique (hasDerivAt_const (0 : ℝ) (0 : ℝ))
  change (a.lin i + b.lin i) * Real.sin l.nom + (a.nom + b.nom) * (Real.cos l.nom * l.lin i) -
    (rF.lin i - rR.lin i + (c.lin i * Real.cos l.nom + c.nom * (-Real.sin l.nom * l.lin i))) = 0 at hu
  linear_combination hu

/-- **C123, refuted in general.** For wheels of equal nominal radius the variance of the true tilt has one more contribution: that of the radii.  If the
radii are independent of the frame measurements, the returned variance is too small by exactly
`var(rF - rR)/((a + b)² + c²)`. -/
theorem C123_variance_deficit [Fintype ι] (newton : (ℝ → ℝ) → ℝ → Except PyErr ℝ)
    (hnewton : ∀ f x, f x = 0 → newton f x = .ok x)
    {rF rR a b c l : UNum ι} {FrF FrR Fa Fb Fc L : (ι → ℝ) → ℝ}
    (h : TrueTilt rF rR a b c l FrF FrR Fa Fb Fc L) (hab : a.nom + b.nom ≠ 0)
    (hr : rF.nom = rR.nom)
    (hind : ∀ i, rF.lin i - rR.lin i = 0 ∨ (a.lin i = 0 ∧ b.lin i = 0 ∧ c.lin i = 0)) :
    ∃ r, lambdaFromAbcU newton (.u rF) (.u rR) (.u a) (.u b) (.u c) = .ok r ∧
      l.std ^ 2 = r.std ^ 2 + (rF - rR).std ^ 2 / ((a.nom + b.nom) ^ 2 + c.nom ^ 2) := by
  have hg : newton (fun lam => lamEquality lam rF.nom rR.nom a.nom b.nom c.nom)
      (lamGuess a.nom b.nom c.nom) = .ok (lamGuess a.nom b.nom c.nom) := by
    apply hnewton
    rw [hr]
    exact C10_guess_exact_for_equal_wheels _ _ _ _ hab
  have hnom := C123_nominal newton rF rR a b c
  rw [lambdaFromAbc, hg] at hnom
  cases hl : lambdaFromAbcU newton (.u rF) (.u rR) (.u a) (.u b) (.u c) with
  | error e => rw [hl] at hnom; cases hnom
  | ok r =>
    refine ⟨r, rfl, ?_⟩
    rw [(C123_std newton rF rR a b c r hab hl).2]
    set s := a.nom + b.nom with hs
    have hR : 0 < s ^ 2 + c.nom ^ 2 := by positivity
    rcases isEmpty_or_nonempty ι with hι | ⟨⟨i₀⟩⟩
    · simp [UNum.std]
    -- the tilt of the nominal values
    have heq : s * Real.sin l.nom = c.nom * Real.cos l.nom := by
      have := (h.solves i₀).self_of_nhds
      rw [Tracks.at_zero h.l, Tracks.at_zero h.rF, Tracks.at_zero h.rR, Tracks.at_zero h.a,
        Tracks.at_zero h.b, Tracks.at_zero h.c, lamEquality_zero_iff _ _ _ _ _ _ hab, hr] at this
      linarith
    set D := s * Real.cos l.nom + c.nom * Real.sin l.nom with hD
    have hsc := Real.sin_sq_add_cos_sq l.nom
    have hDc : D * Real.cos l.nom = s := by
      rw [hD]; linear_combination (-Real.sin l.nom) * heq + s * hsc
    have hDs : D * Real.sin l.nom = c.nom := by
      rw [hD]; linear_combination (Real.cos l.nom) * heq + c.nom * hsc
    have hD2 : D ^ 2 = s ^ 2 + c.nom ^ 2 := by
      rw [← hDc, ← hDs]; linear_combination (-D ^ 2) * hsc
    have hi : ∀ i, l.lin i ^ 2 = (s * c.lin i - c.nom * (a.lin i + b.lin i)) ^ 2 /
        (s ^ 2 + c.nom ^ 2) ^ 2 + (rF.lin i - rR.lin i) ^ 2 / (s ^ 2 + c.nom ^ 2) := by
      intro i
      have ht := C123_true_derivative h hab i
      rw [← hs, ← hD] at ht
      have e1 : (D * l.lin i) ^ 2 = (rF.lin i - rR.lin i) ^ 2 +
          (c.lin i * Real.cos l.nom - (a.lin i + b.lin i) * Real.sin l.nom) ^ 2 := by
        rw [ht]
        rcases hind i with h0 | ⟨h1, h2, h3⟩
        · rw [h0]; ring
        · rw [h1, h2, h3]; ring
      have e2 : D ^ 2 * (c.lin i * Real.cos l.nom - (a.lin i + b.lin i) * Real.sin l.nom) ^ 2 =
          (s * c.lin i - c.nom * (a.lin i + b.lin i)) ^ 2 := by
        rw [← hDc, ← hDs]; ring
      rw [mul_pow, hD2] at e1
      rw [hD2] at e2
      rw [← e2]
      field_simp
      linear_combination e1
    have hstd : ∀ u : UNum ι, u.std ^ 2 = ∑ i, u.lin i ^ 2 := fun u =>
      Real.sq_sqrt (Finset.sum_nonneg fun i _ => sq_nonneg _)
    rw [hstd, hstd, div_pow, Real.sq_sqrt (Finset.sum_nonneg fun i _ => sq_nonneg _)]
    simp only [hi, Finset.sum_add_distrib, Finset.sum_div]
    rfl

/-- **C123, the part that holds.** For wheels of equal nominal radius whose difference is known
exactly the standard deviation is the correct one. -/
theorem C123_std_partial [Fintype ι] (newton : (ℝ → ℝ) → ℝ → Except PyErr ℝ)
    (hnewton : ∀ f x, f x = 0 → newton f x = .ok x)
    {rF rR a b c l : UNum ι} {FrF FrR Fa Fb Fc L : (ι → ℝ) → ℝ}
    (h : TrueTilt rF rR a b c l FrF FrR Fa Fb Fc L) (hab : a.nom + b.nom ≠ 0)
    (hr : rF.nom = rR.nom) (hlin : rF.lin = rR.lin) :
    ∃ r, lambdaFromAbcU newton (.u rF) (.u rR) (.u a) (.u b) (.u c) = .ok r ∧ r.std = l.std := by
  obtain ⟨r, h1, h2⟩ := C123_variance_deficit newton hnewton h hab hr
    (fun i => Or.inl (by rw [hlin, sub_self]))
  refine ⟨r, h1, ?_⟩
  have h0 : (rF - rR).std = 0 := by
    have : ∀ i, (rF - rR).lin i = 0 := fun i => by
      show rF.lin i - rR.lin i = 0
      rw [hlin, sub_self]
    simp [UNum.std, this]
  rw [h0] at h2
  have h3 : r.std ^ 2 = l.std ^ 2 := by rw [h2]; ring
  exact (pow_left_inj₀ (std_nonneg _) (std_nonneg _) (by norm_num)).1 h3

/-- **C123, refuted.** If the difference of two equal radii is uncertain, independently of the
frame measurements, the returned standard deviation is too small. -/
theorem C123_too_small [Fintype ι] (newton : (ℝ → ℝ) → ℝ → Except PyErr ℝ)
    (hnewton : ∀ f x, f x = 0 → newton f x = .ok x)
    {rF rR a b c l : UNum ι} {FrF FrR Fa Fb Fc L : (ι → ℝ) → ℝ}
    (h : TrueTilt rF rR a b c l FrF FrR Fa Fb Fc L) (hab : a.nom + b.nom ≠ 0)
    (hr : rF.nom = rR.nom) (hstd : 0 < (rF - rR).std)
    (hind : ∀ i, rF.lin i - rR.lin i = 0 ∨ (a.lin i = 0 ∧ b.lin i = 0 ∧ c.lin i = 0)) :
    ∃ r, lambdaFromAbcU newton (.u rF) (.u rR) (.u a) (.u b) (.u c) = .ok r ∧ r.std < l.std := by
  obtain ⟨r, h1, h2⟩ := C123_variance_deficit newton hnewton h hab hr hind
  refine ⟨r, h1, ?_⟩
  have hR : 0 < (a.nom + b.nom) ^ 2 + c.nom ^ 2 := by positivity
  have h3 : r.std ^ 2 < l.std ^ 2 := by
    rw [h2]
    have : 0 < (rF - rR).std ^ 2 / ((a.nom + b.nom) ^ 2 + c.nom ^ 2) := by positivity
    linarith
  exact lt_of_pow_lt_pow_left₀ 2 (std_nonneg _) h3

/-- Wheels of radius 1/3, the front one known up to 1/100, on a frame that is known exactly. -/
theorem exampleTilt : TrueTilt (ι := Unit) ⟨1 / 3, fun _ => 1 / 100⟩ ⟨1 / 3, fun _ => 0⟩
    ⟨2 / 5, fun _ => 0⟩ ⟨2 / 5, fun _ => 0⟩ ⟨3 / 5, fun _ => 0⟩
    ⟨Real.arctan (3 / 4), fun _ => 1 / 100⟩
    (fun z => 1 / 3 + 1 / 100 * z ()) (fun _ => 1 / 3) (fun _ => 2 / 5) (fun _ => 2 / 5)
    (fun _ => 3 / 5) (fun z => Real.arctan (3 / 4) + Real.arcsin (1 / 100 * z ())) := by
  have hd : HasDerivAt (fun t : ℝ => 1 / 100 * t) (1 / 100) (0 : ℝ) := by
    simpa using (hasDerivAt_id (0 : ℝ)).const_mul (1 / 100 : ℝ)
  refine ⟨⟨by simp, fun i => ?_⟩, Tracks.lit _, Tracks.lit _, Tracks.lit _, Tracks.lit _,
    ⟨by simp, fun i => ?_⟩, fun i => ?_⟩
  · simpa using hd.const_add (1 / 3)
  · have h1 : HasDerivAt Real.arcsin (1 / √(1 - (1 / 100 * 0) ^ 2)) ((fun t : ℝ => 1 / 100 * t) 0) :=
      Real.hasDerivAt_arcsin (by norm_num) (by norm_num)
    have h2 := (HasDerivAt.comp (0 : ℝ) h1 hd).const_add (Real.arctan (3 / 4))
    simpa [Function.comp_def] using h2
  · have he : ∀ᶠ t in nhds (0 : ℝ), |t| < 1 := by
      have : ContinuousAt (fun t : ℝ => |t|) 0 := continuous_abs.continuousAt
      exact this.eventually_lt continuousAt_const (by norm_num)
    filter_upwards [he] with t ht
    obtain ⟨h1, h2⟩ := abs_lt.1 ht
    rw [lamEquality_zero_iff _ _ _ _ _ _ (by norm_num)]
    have hsq : √(1 + (3 / 4 : ℝ) ^ 2) = 5 / 4 := by
      rw [show (1 + (3 / 4 : ℝ) ^ 2) = (5 / 4) ^ 2 by norm_num, Real.sqrt_sq (by norm_num)]
    have hs : Real.sin (Real.arctan (3 / 4)) = 3 / 5 := by
      rw [Real.sin_arctan, hsq]; norm_num
    have hc : Real.cos (Real.arctan (3 / 4)) = 4 / 5 := by
      rw [Real.cos_arctan, hsq]; norm_num
    have ha : Real.sin (Real.arcsin (1 / 100 * t)) = 1 / 100 * t :=
      Real.sin_arcsin (by linarith) (by linarith)
    simp only [Pi.single_eq_same]
    rw [Real.sin_add, Real.cos_add, hs, hc, ha]
    ring

/-- The hypotheses of C123 can be met, with a root finder that accepts an exact guess: the
returned tilt has the standard deviation 0, the true one 1/100. -/
example : ∃ r, lambdaFromAbcU (ι := Unit) (fun f x => if f x = 0 then .ok x else .error .valueError)
      (.u ⟨1 / 3, fun _ => 1 / 100⟩) (.u ⟨1 / 3, fun _ => 0⟩) (.u ⟨2 / 5, fun _ => 0⟩)
      (.u ⟨2 / 5, fun _ => 0⟩) (.u ⟨3 / 5, fun _ => 0⟩) = .ok r ∧
    r.std < (⟨Real.arctan (3 / 4), fun _ => 1 / 100⟩ : UNum Unit).std :=
  C123_too_small _ (fun f x h => by simp [h]) exampleTilt (by norm_num) rfl
    (by
      show 0 < √(∑ i : Unit, ((1 / 100 : ℝ) - 0) ^ 2)
      simp)
    (fun _ => Or.inr ⟨rfl, rfl, rfl⟩)

end BP
