import Mathlib.Tactic.FieldSimp
import Mathlib.Tactic.Ring
import Mathlib.Tactic.Linarith
import Mathlib.Tactic.LinearCombination
import Mathlib.Tactic.NormNum
import Mathlib.Analysis.SpecialFunctions.Complex.Arg
import Verif.Model.Geometry
import Verif.Spec.Plane

/-!
# Properties of trail, lambda_from_abc (C09, C10) and geometry.py (C11 to C19)
-/

set_option linter.unusedSimpArgs false

namespace BP

open Real Matrix Spec

/-! ## C09 -/

/-- **C09.** Put the front contact point at the origin: the wheel centre is
`(0, -rF)`.  `trail` returns the unique `c` such that the axis tilted by `lam`
through the ground point `(c, 0)` runs `fo` behind the wheel centre; and `|cm|`
is the distance from the contact point to that axis. -/
theorem C09_trail_geometry (rF lam fo c : ℝ) (h : cos lam ≠ 0) :
    (c = (trail rF lam fo).1 ↔ aheadOfAxis c lam 0 (-rF) = fo) ∧
    (trail rF lam fo).2 = -aheadOfAxis (trail rF lam fo).1 lam 0 0 := by
  constructor
  · simp only [trail, aheadOfAxis]
    constructor
    · rintro rfl; field_simp; ring
    · intro hh; field_simp; linarith
  · simp only [trail, aheadOfAxis]; ring

/-- **C09.** `|cm|` is attained and minimal as a distance to axis points. -/
theorem C09_mechanical_trail_is_distance (rF lam fo : ℝ) (h : cos lam ≠ 0) :
    (∀ t : ℝ, |(trail rF lam fo).2| ≤
      √((0 - ((trail rF lam fo).1 + t * sin lam)) ^ 2 + (0 - t * cos lam) ^ 2)) ∧
    ∃ t : ℝ, |(trail rF lam fo).2| =
      √((0 - ((trail rF lam fo).1 + t * sin lam)) ^ 2 + (0 - t * cos lam) ^ 2) := by
  have e : |(trail rF lam fo).2| = |aheadOfAxis (trail rF lam fo).1 lam 0 0| := by
    rw [(C09_trail_geometry rF lam fo 0 h).2, abs_neg]
  rw [e]
  exact aheadOfAxis_isLeast _ _ _ _

/-- non-vacuity of C09 -/
example : cos (0 : ℝ) ≠ 0 ∧ trail 1 0 (1 / 4) = (-1 / 4, -1 / 4) := by
  norm_num [trail]

/-! ## C10 -/

theorem lamEquality_zero_iff (lam rF rR a b c : ℝ) (hab : a + b ≠ 0) :
    lamEquality lam rF rR a b c = 0 ↔ (a + b) * sin lam = rF - rR + c * cos lam := by
  unfold lamEquality
  rw [sub_eq_zero, eq_div_iff hab, mul_comm]

/-- **C10.** If the root finder only returns roots, `lambda_from_abc` returns a tilt
satisfying the wheel-offset equation. -/
theorem C10_lambda_solves_offset_equation (newton : (ℝ → ℝ) → ℝ → Except PyErr ℝ)
    (hnewton : ∀ f x0 r, newton f x0 = .ok r → f r = 0)
    (rF rR a b c lam : ℝ) (hab : a + b ≠ 0)
    (h : lambdaFromAbc newton rF rR a b c = .ok lam) :
    (a + b) * sin lam = rF - rR + c * cos lam :=
  (lamEquality_zero_iff lam rF rR a b c hab).1 (hnewton (fun lam => lamEquality lam rF rR a b c) _ lam h)

/-- **C10.** A tilt exists iff the difference of the wheel radii does not exceed the
length of the hypotenuse of `a + b` and `c`. -/
theorem C10_tilt_exists_iff (rF rR a b c : ℝ) :
    (∃ lam, (a + b) * sin lam = rF - rR + c * cos lam) ↔ |rF - rR| ≤ √((a + b) ^ 2 + c ^ 2) := by
  set s := a + b
  set d := rF - rR
  constructor
  · rintro ⟨lam, h⟩
    apply Real.abs_le_sqrt
    have h2 : d = s * sin lam - c * cos lam := by linarith
    rw [h2]
    have := sin_sq_add_cos_sq lam
    nlinarith [sq_nonneg (s * cos lam + c * sin lam)]
  · intro h
    -- write (s, c) in polar coordinates
    set R := √(s ^ 2 + c ^ 2) with hR
    have hR2 : R ^ 2 = s ^ 2 + c ^ 2 := Real.sq_sqrt (by positivity)
    by_cases h0 : R = 0
    · have hs : s = 0 := by
        have := hR2; rw [h0] at this; nlinarith [sq_nonneg s, sq_nonneg c]
      have hc : c = 0 := by
        have := hR2; rw [h0] at this; nlinarith [sq_nonneg s, sq_nonneg c]
      have hd : d = 0 := by rw [h0] at h; exact abs_nonpos_iff.1 h
      exact ⟨0, by simp [hs, hc, hd]⟩
    · have hRpos : 0 < R := lt_of_le_of_ne (Real.sqrt_nonneg _) (Ne.symm h0)
      -- angle φ with cos φ = s/R, sin φ = c/R
      obtain ⟨φ, hφc, hφs⟩ : ∃ φ, cos φ = s / R ∧ sin φ = c / R := by
        refine ⟨Complex.arg ⟨s, c⟩, ?_, ?_⟩
        · have hn : ‖(⟨s, c⟩ : ℂ)‖ = R := by rw [Complex.norm_eq_sqrt_sq_add_sq]
          have hne : (⟨s, c⟩ : ℂ) ≠ 0 := by
            intro hc; rw [hc] at hn; simp at hn; exact h0 hn.symm
          rw [Complex.cos_arg hne, hn]
        · have hn : ‖(⟨s, c⟩ : ℂ)‖ = R := by rw [Complex.norm_eq_sqrt_sq_add_sq]
          rw [Complex.sin_arg, hn]
      have hle := abs_le.1 h
      have h1 : -1 ≤ d / R := by rw [le_div_iff₀ hRpos]; linarith [hle.1]
      have h2 : d / R ≤ 1 := by rw [div_le_iff₀ hRpos]; linarith [hle.2]
      refine ⟨φ + arcsin (d / R), ?_⟩
      have hsin : sin (arcsin (d / R)) = d / R := Real.sin_arcsin h1 h2
      have hs : s = R * cos φ := by rw [hφc]; field_simp
      have hc : c = R * sin φ := by rw [hφs]; field_simp
      have e : s * sin (φ + arcsin (d / R)) - c * cos (φ + arcsin (d / R)) = d := by
        rw [Real.sin_add, Real.cos_add, hs, hc, hsin]
        have := sin_sq_add_cos_sq φ
        have hd : d / R * R = d := by field_simp
        linear_combination (d / R * R) * this + hd
      linarith

/-- **C10.** With equal wheel radii the initial guess is the solution. -/
theorem C10_guess_exact_for_equal_wheels (r a b c : ℝ) (hab : a + b ≠ 0) :
    lamEquality (lamGuess a b c) r r a b c = 0 := by
  unfold lamEquality lamGuess
  rw [Real.sin_arctan, Real.cos_arctan]
  have : √(1 + (c / (a + b)) ^ 2) ≠ 0 := by positivity
  field_simp
  ring

/-- non-vacuity of C10: a bicycle with unequal wheels has a tilt -/
example : ∃ lam, (2 + 1 : ℝ) * sin lam = 4 - 3 + 1 * cos lam :=
  (C10_tilt_exists_iff 4 3 2 1 1).2 (by
    rw [show |(4 - 3 : ℝ)| = 1 by norm_num]
    exact Real.le_sqrt_of_sq_le (by norm_num))

/-! ## C13 -/

theorem norm3_sub_eq_dist3 (a b : Fin 3 → ℝ) : norm3 (a - b) = dist3 a b := by
  simp only [norm3, dist3, dotProduct, Fin.sum_univ_three, Pi.sub_apply]
  congr 1; ring

/-- **C13.** `point_to_line_distance` is the least distance from the point to a
point of the line. -/
theorem C13_distance_is_minimal (point x1 x2 : Fin 3 → ℝ) (hne : x1 ≠ x2) :
    IsLeast {d | ∃ q, onLine x1 x2 q ∧ d = dist3 point q} (pointToLineDistance point x1 x2) := by
  set a := point - x1 with ha
  set d := x2 - x1 with hd
  have hdd : 0 < d ⬝ᵥ d := by
    have hne' : d ≠ 0 := fun h => hne (sub_eq_zero.1 h).symm
    have h1 : 0 ≤ d ⬝ᵥ d := by
      simp only [dotProduct, Fin.sum_univ_three]; nlinarith [sq_nonneg (d 0), sq_nonneg (d 1), sq_nonneg (d 2)]
    have h2 : d ⬝ᵥ d ≠ 0 := by
      intro h
      simp only [dotProduct, Fin.sum_univ_three] at h
      refine hne' (funext fun i => ?_)
      fin_cases i <;> simp <;> nlinarith [sq_nonneg (d 0), sq_nonneg (d 1), sq_nonneg (d 2)]
    exact lt_of_le_of_ne h1 (Ne.symm h2)
  have hcross : ((point - x1) ⨯₃ (point - x2)) ⬝ᵥ ((point - x1) ⨯₃ (point - x2)) =
      (a ⬝ᵥ a) * (d ⬝ᵥ d) - (a ⬝ᵥ d) ^ 2 := by
    simp only [ha, hd, crossProduct, dotProduct, Fin.sum_univ_three, LinearMap.mk₂_apply,
      Pi.sub_apply, Matrix.cons_val_zero, Matrix.cons_val_one, Matrix.cons_val]
    ring
  have hval : pointToLineDistance point x1 x2 =
      √(((a ⬝ᵥ a) * (d ⬝ᵥ d) - (a ⬝ᵥ d) ^ 2) / (d ⬝ᵥ d)) := by
    unfold pointToLineDistance norm3
    rw [hcross, Real.sqrt_div']
    exact hdd.le
  have hdist : ∀ t : ℝ, dist3 point (x1 + t • (x2 - x1)) =
      √((a ⬝ᵥ a) - 2 * t * (a ⬝ᵥ d) + t ^ 2 * (d ⬝ᵥ d)) := by
    intro t
    simp only [dist3, ha, hd, dotProduct, Fin.sum_univ_three, Pi.sub_apply, Pi.add_apply,
      Pi.smul_apply, smul_eq_mul]
    congr 1; ring
  constructor
  · refine ⟨x1 + ((a ⬝ᵥ d) / (d ⬝ᵥ d)) • (x2 - x1), ⟨_, rfl⟩, ?_⟩
    rw [hdist, hval]
    congr 1
    field_simp
    ring
  · rintro e ⟨q, ⟨t, rfl⟩, rfl⟩
    rw [hdist, hval]
    apply Real.sqrt_le_sqrt
    rw [div_le_iff₀ hdd]
    nlinarith [sq_nonneg ((a ⬝ᵥ d) - t * (d ⬝ᵥ d))]

/-- non-vacuity of C13 -/
example : (![0, 0, 0] : Fin 3 → ℝ) ≠ ![0, 1, 0] := by
  intro h; simpa using congrFun h 1

/-- `distance_to_steer_axis` of a point in the symmetry plane is the distance to the
axis of the specification. -/
theorem distanceToSteerAxis_eq (w c lam x z : ℝ) :
    distanceToSteerAxis w c lam ![x, 0, z] = |aheadOfAxis (w + c) lam x z| := by
  have hsc := sin_sq_add_cos_sq lam
  unfold distanceToSteerAxis pointToLineDistance norm3
  have h1 : (![w + c, 0, 0] + ![-sin lam, 0, -cos lam] - ![w + c, 0, 0] : Fin 3 → ℝ) ⬝ᵥ
      (![w + c, 0, 0] + ![-sin lam, 0, -cos lam] - ![w + c, 0, 0]) = 1 := by
    simp [dotProduct, Fin.sum_univ_three]; nlinarith
  simp only [h1, Real.sqrt_one, div_one]
  rw [← Real.sqrt_sq_eq_abs]
  congr 1
  simp [dotProduct, Fin.sum_univ_three, crossProduct, aheadOfAxis]
  ring

/-! ## C11 -/

/-- What the final dictionary holds after a successful call. -/
theorem geometry_ok (newton : (ℝ → ℝ) → ℝ → Except PyErr ℝ) (mp par out : Dict ℝ)
    (h : calculateBenchmarkGeometry newton mp par = .ok out) :
    ∃ lam w fo,
      (∀ k ∈ ["dF", "nF", "dR", "nR"], Dict.has mp k = true) ∧
      frameGeometry newton mp (wheelRadius (Dict.getD mp "dF" 0) (Dict.getD mp "nF" 0))
        (wheelRadius (Dict.getD mp "dR" 0) (Dict.getD mp "nR" 0)) = .ok (lam, w, fo) ∧
      Dict.find? out "rF" = some (wheelRadius (Dict.getD mp "dF" 0) (Dict.getD mp "nF" 0)) ∧
      Dict.find? out "rR" = some (wheelRadius (Dict.getD mp "dR" 0) (Dict.getD mp "nR" 0)) ∧
      Dict.find? out "lam" = some lam ∧ Dict.find? out "w" = some w ∧
      Dict.find? out "c" = some (trail (wheelRadius (Dict.getD mp "dF" 0) (Dict.getD mp "nF" 0)) lam fo).1 ∧
      (∀ k, k ∉ ["rF", "rR", "lam", "w", "c", "xcl", "zcl"] → Dict.find? out k = Dict.find? par k) ∧
      Dict.find? out "xcl" = (if Dict.has mp "xcl" then Dict.find? mp "xcl" else Dict.find? par "xcl") ∧
      Dict.find? out "zcl" = (if Dict.has mp "xcl" && Dict.has mp "zcl" then Dict.find? mp "zcl"
        else Dict.find? par "zcl") := by
  unfold calculateBenchmarkGeometry at h
  cases hr : Dict.require mp ["dF", "nF", "dR", "nR"] with
  | error e => simp [hr] at h
  | ok u =>
    simp only [hr] at h
    cases hf : frameGeometry newton mp (wheelRadius (Dict.getD mp "dF" 0) (Dict.getD mp "nF" 0))
        (wheelRadius (Dict.getD mp "dR" 0) (Dict.getD mp "nR" 0)) with
    | error e => simp [hf] at h
    | ok r =>
      obtain ⟨lam, w, fo⟩ := r
      simp only [hf, Except.ok.injEq] at h
      subst h
      refine ⟨lam, w, fo, (Dict.require_ok_iff _ _).1 hr, rfl, ?_⟩
      unfold transferLateral
      cases hx : Dict.find? mp "xcl" with
      | none =>
        simp [Dict.find?_set, Dict.has, hx]
        intro k h1 h2 h3 h4 h5 h6 h7
        simp [Ne.symm h1, Ne.symm h2, Ne.symm h3, Ne.symm h4, Ne.symm h5]
      | some x =>
        cases hz : Dict.find? mp "zcl" with
        | none =>
          simp [Dict.find?_set, Dict.has, hx, hz]
          intro k h1 h2 h3 h4 h5 h6 h7
          simp [Ne.symm h1, Ne.symm h2, Ne.symm h3, Ne.symm h4, Ne.symm h5, Ne.symm h6]
        | some z =>
          simp [Dict.find?_set, Dict.has, hx, hz]
          intro k h1 h2 h3 h4 h5 h6 h7
          simp [Ne.symm h1, Ne.symm h2, Ne.symm h3, Ne.symm h4, Ne.symm h5, Ne.symm h6, Ne.symm h7]

/-- **C11.** Offsets measured: the computed `w`, `c` and `lam` put the front wheel
centre `b` ahead of the steer axis, the rear wheel centre `a` behind it, and the two
foot points a distance `c_axis` apart along it; so `distance_to_steer_axis` gives back
the measured offsets. -/
theorem C11_geometry_reproduces_offsets (newton : (ℝ → ℝ) → ℝ → Except PyErr ℝ)
    (hnewton : ∀ f x0 r, newton f x0 = .ok r → f r = 0)
    (mp par out : Dict ℝ) (hw : Dict.has mp "w" = false)
    (hout : calculateBenchmarkGeometry newton mp par = .ok out) (a b cax : ℝ)
    (habc : (a, b, cax) = calculateAbcGeometry (Dict.getD mp "h1" 0) (Dict.getD mp "h2" 0)
      (Dict.getD mp "h3" 0) (Dict.getD mp "h4" 0) (Dict.getD mp "h5" 0) (Dict.getD mp "d1" 0)
      (Dict.getD mp "d2" 0) (Dict.getD mp "d3" 0) (Dict.getD mp "d4" 0) (Dict.getD mp "d" 0))
    (hab : a + b ≠ 0) :
    ∃ rF rR lam w tr : ℝ,
      Dict.find? out "rF" = some rF ∧ Dict.find? out "rR" = some rR ∧
      Dict.find? out "lam" = some lam ∧ Dict.find? out "w" = some w ∧ Dict.find? out "c" = some tr ∧
      (cos lam ≠ 0 →
        aheadOfAxis (w + tr) lam w (-rF) = b ∧ aheadOfAxis (w + tr) lam 0 (-rR) = -a ∧
        alongAxis lam w (-rF) - alongAxis lam 0 (-rR) = cax ∧
        distanceToSteerAxis w tr lam ![w, 0, -rF] = |b| ∧
        distanceToSteerAxis w tr lam ![0, 0, -rR] = |a|) := by
  obtain ⟨lam, w, fo, _, hfg, h1, h2, h3, h4, h5, _⟩ := geometry_ok newton mp par out hout
  refine ⟨_, _, lam, w, _, h1, h2, h3, h4, h5, ?_⟩
  intro hcos
  generalize wheelRadius (Dict.getD mp "dF" 0) (Dict.getD mp "nF" 0) = rF at *
  generalize wheelRadius (Dict.getD mp "dR" 0) (Dict.getD mp "nR" 0) = rR at *
  unfold frameGeometry at hfg
  simp only [hw, Bool.false_eq_true, if_false, ← habc] at hfg
  split at hfg
  · simp at hfg
  · split at hfg
    · simp at hfg
    · rename_i l hl
      simp only [Except.ok.injEq, Prod.mk.injEq] at hfg
      obtain ⟨rfl, rfl, rfl⟩ := hfg
      have hroot := C10_lambda_solves_offset_equation newton hnewton rF rR a b cax l hab hl
      have hsc := sin_sq_add_cos_sq l
      have htr : (trail rF l b).1 * cos l = rF * sin l - b := by simp only [trail]; field_simp
      have e1 : aheadOfAxis ((a + b) * cos l + cax * sin l + (trail rF l b).1) l
          ((a + b) * cos l + cax * sin l) (-rF) = b := by
        simp only [aheadOfAxis]; linear_combination -htr
      have e2 : aheadOfAxis ((a + b) * cos l + cax * sin l + (trail rF l b).1) l 0 (-rR) = -a := by
        simp only [aheadOfAxis]
        linear_combination -htr + sin l * hroot - (a + b) * hsc
      refine ⟨e1, e2, ?_, ?_, ?_⟩
      · simp only [alongAxis]
        linear_combination cos l * hroot + cax * hsc
      · rw [distanceToSteerAxis_eq, e1]
      · rw [distanceToSteerAxis_eq, e2, abs_neg]

/-- **C11.** The documented measurements (docs/data.rst:253-264): if the rear axle centre lies
`zR - zT` above the head tube axis and the front axle centre `zF - zS` above the steer tube axis,
both axes horizontal, and with the fork reversed the axle centres are `s ≥ 0` apart along the
axis, then the heights of the tops (`h1 + h2`, `h3`, `h4`, `h5`), the diameters and the inside
distance `d` between the axles give back exactly `(zR - zT, zF - zS, s)`. -/
theorem C11_offsets_from_measurements (zR zT zF zS s h1 h2 h3 h4 h5 d1 d2 d3 d4 d : ℝ) (hs : 0 ≤ s)
    (e1 : h1 + h2 = zR + d2 / 2) (e3 : h3 = zT + d1 / 2) (e4 : h4 = zF + d3 / 2)
    (e5 : h5 = zS + d4 / 2)
    (ed : d + d2 / 2 + d3 / 2 = √(((zR - zT) - (zF - zS)) ^ 2 + s ^ 2)) :
    calculateAbcGeometry h1 h2 h3 h4 h5 d1 d2 d3 d4 d = (zR - zT, zF - zS, s) := by
  have ha : h1 + h2 - h3 + 0.5 * d1 - 0.5 * d2 = zR - zT := by rw [e1, e3]; ring
  have hb : h4 - 0.5 * d3 - h5 + 0.5 * d4 = zF - zS := by rw [e4, e5]; ring
  have hd : d + 0.5 * (d2 + d3) = √(((zR - zT) - (zF - zS)) ^ 2 + s ^ 2) := by rw [← ed]; ring
  simp only [calculateAbcGeometry, ha, hb, hd, Real.sq_sqrt (add_nonneg (sq_nonneg _) (sq_nonneg s))]
  rw [neg_add_cancel_left, Real.sqrt_sq hs]

example : calculateAbcGeometry 0.5 0.25 0.3125 0.125 0.0625 0.125 0.25 0.25 0.125 0.875 =
    (0.625 - 0.25, 0 - 0, (√(1.125 ^ 2 - 0.375 ^ 2) : ℝ)) :=
  C11_offsets_from_measurements 0.625 0.25 0 0 _ _ _ _ _ _ _ _ _ _ _ (Real.sqrt_nonneg _) (by norm_num)
    (by norm_num) (by norm_num) (by norm_num)
    (by rw [Real.sq_sqrt (by norm_num), show ((0.625 - 0.25 - (0 - 0)) ^ 2 + (1.125 ^ 2 - 0.375 ^ 2) : ℝ) =
          (9 / 8) ^ 2 by norm_num, Real.sqrt_sq (by norm_num)]; norm_num)

/-- **C11.** Wheelbase and head tube angle measured: the computed trail puts the front
wheel centre at the measured fork offset from the steer axis. -/
theorem C11_geometry_reproduces_fork_offset (newton : (ℝ → ℝ) → ℝ → Except PyErr ℝ)
    (mp par out : Dict ℝ) (hw : Dict.has mp "w" = true)
    (hout : calculateBenchmarkGeometry newton mp par = .ok out) :
    ∃ f rF lam w tr : ℝ, Dict.find? mp "f" = some f ∧ Dict.find? mp "w" = some w ∧
      Dict.find? out "rF" = some rF ∧ Dict.find? out "lam" = some lam ∧
      Dict.find? out "w" = some w ∧ Dict.find? out "c" = some tr ∧
      (cos lam ≠ 0 → aheadOfAxis (w + tr) lam w (-rF) = f ∧
        distanceToSteerAxis w tr lam ![w, 0, -rF] = |f|) := by
  obtain ⟨lam, w, fo, _, hfg, h1, h2, h3, h4, h5, _⟩ := geometry_ok newton mp par out hout
  unfold frameGeometry at hfg
  simp only [hw, if_true] at hfg
  split at hfg
  · simp at hfg
  · rename_i hreq
    have hk := (Dict.require_ok_iff _ _).1 hreq
    obtain ⟨f, hf⟩ := (Dict.has_iff_exists _ _).1 (hk "f" (by simp))
    obtain ⟨w', hw'⟩ := (Dict.has_iff_exists _ _).1 (hk "w" (by simp))
    simp only [Except.ok.injEq, Prod.mk.injEq, Dict.getD, hf, hw', Option.getD_some] at hfg
    obtain ⟨rfl, rfl, rfl⟩ := hfg
    refine ⟨f, _, _, w', _, hf, hw', h1, h3, h4, h5, ?_⟩
    intro hcos
    generalize wheelRadius (Dict.getD mp "dF" 0) (Dict.getD mp "nF" 0) = rF at *
    generalize π / 180 * (90 - (Dict.find? mp "gamma").getD 0) = l at *
    have htr : (trail rF l f).1 * cos l = rF * sin l - f := by simp only [trail]; field_simp
    have e1 : aheadOfAxis (w' + (trail rF l f).1) l w' (-rF) = f := by
      simp only [aheadOfAxis]; linear_combination -htr
    exact ⟨e1, by rw [distanceToSteerAxis_eq, e1]⟩

/-- non-vacuity of C11 (first theorem): equal wheels, offsets 1/2 and 1/2, axis
distance 0, and a root finder that knows the root 0. -/
example : ∃ (newton : (ℝ → ℝ) → ℝ → Except PyErr ℝ) (mp : Dict ℝ) (out : Dict ℝ),
    (∀ f x0 r, newton f x0 = .ok r → f r = 0) ∧ Dict.has mp "w" = false ∧
    calculateBenchmarkGeometry newton mp [] = .ok out ∧
    calculateAbcGeometry (Dict.getD mp "h1" 0) (Dict.getD mp "h2" 0)
      (Dict.getD mp "h3" 0) (Dict.getD mp "h4" 0) (Dict.getD mp "h5" 0) (Dict.getD mp "d1" 0)
      (Dict.getD mp "d2" 0) (Dict.getD mp "d3" 0) (Dict.getD mp "d4" 0) (Dict.getD mp "d" 0) =
      (1 / 2, 1 / 2, 0) := by
  classical
  have habc : calculateAbcGeometry (1 / 2) 0 0 (1 / 2) 0 0 0 0 0 0 = (1 / 2, 1 / 2, 0) := by
    norm_num [calculateAbcGeometry]
  let mp : Dict ℝ := [("dF", 2), ("nF", 1), ("dR", 2), ("nR", 1), ("h1", 1 / 2), ("h2", 0), ("h3", 0),
    ("h4", 1 / 2), ("h5", 0), ("d1", 0), ("d2", 0), ("d3", 0), ("d4", 0), ("d", 0)]
  let newton : (ℝ → ℝ) → ℝ → Except PyErr ℝ := fun f _ => if f 0 = 0 then .ok 0 else .error .valueError
  have hnew : ∀ f x0 r, newton f x0 = .ok r → f r = 0 := by
    intro f x0 r h
    simp only [newton] at h
    split at h
    · rename_i h0; simp only [Except.ok.injEq] at h; rw [← h]; exact h0
    · simp at h
  have hl : ∀ r, lambdaFromAbc newton r r (1 / 2) (1 / 2) 0 = .ok 0 := by
    intro r; simp [lambdaFromAbc, newton, lamEquality]
  have hw : Dict.has mp "w" = false := by simp [mp, Dict.has, Dict.find?]
  have hab : calculateAbcGeometry (Dict.getD mp "h1" 0) (Dict.getD mp "h2" 0)
      (Dict.getD mp "h3" 0) (Dict.getD mp "h4" 0) (Dict.getD mp "h5" 0) (Dict.getD mp "d1" 0)
      (Dict.getD mp "d2" 0) (Dict.getD mp "d3" 0) (Dict.getD mp "d4" 0) (Dict.getD mp "d" 0) =
      (1 / 2, 1 / 2, 0) := by simpa [mp, Dict.getD, Dict.find?] using habc
  suffices h : ∃ out, calculateBenchmarkGeometry newton mp [] = .ok out by
    obtain ⟨out, ho⟩ := h
    exact ⟨newton, mp, out, hnew, hw, ho, hab⟩
  simp only [calculateBenchmarkGeometry, frameGeometry]
  simp only [mp, Dict.require, Dict.find?, Dict.has, Dict.getD]
  simp only [String.reduceEq, if_true, if_false, Option.getD_some, habc, hl, Option.isSome_none,
    Bool.false_eq_true]
  exact ⟨_, rfl⟩

/-! ## C12 -/

/-- **C12.** A call succeeds only if all measurements of its branch are present; it sets
`rF`, `rR`, `lam`, `w`, `c`, copies `xcl` (and `zcl` only together with `xcl`) and leaves
every other entry of `par` as it was.  The wheel radii are those of the rolled distance. -/
theorem C12_geometry_effects (newton : (ℝ → ℝ) → ℝ → Except PyErr ℝ) (mp par out : Dict ℝ)
    (h : calculateBenchmarkGeometry newton mp par = .ok out) :
    (∃ dF nF dR nR rF rR, Dict.find? mp "dF" = some dF ∧ Dict.find? mp "nF" = some nF ∧
      Dict.find? mp "dR" = some dR ∧ Dict.find? mp "nR" = some nR ∧
      Dict.find? out "rF" = some rF ∧ Dict.find? out "rR" = some rR ∧
      (nF ≠ 0 → 2 * π * rF * nF = dF) ∧ (nR ≠ 0 → 2 * π * rR * nR = dR)) ∧
    (Dict.has mp "w" = true → Dict.find? out "w" = Dict.find? mp "w" ∧
      ∃ gamma lam, Dict.find? mp "gamma" = some gamma ∧ Dict.find? out "lam" = some lam ∧
        lam + gamma * (π / 180) = π / 2) ∧
    (∀ k, k ∉ ["rF", "rR", "lam", "w", "c", "xcl", "zcl"] → Dict.find? out k = Dict.find? par k) ∧
    (Dict.has mp "xcl" = true → Dict.find? out "xcl" = Dict.find? mp "xcl") ∧
    (Dict.has mp "xcl" = true → Dict.has mp "zcl" = true → Dict.find? out "zcl" = Dict.find? mp "zcl") ∧
    (Dict.has mp "xcl" = false → Dict.find? out "xcl" = Dict.find? par "xcl" ∧
      Dict.find? out "zcl" = Dict.find? par "zcl") := by
  obtain ⟨lam, w, fo, hreq, hfg, h1, h2, h3, h4, h5, h6, h7, h8⟩ := geometry_ok newton mp par out h
  obtain ⟨dF, hdF⟩ := (Dict.has_iff_exists _ _).1 (hreq "dF" (by simp))
  obtain ⟨nF, hnF⟩ := (Dict.has_iff_exists _ _).1 (hreq "nF" (by simp))
  obtain ⟨dR, hdR⟩ := (Dict.has_iff_exists _ _).1 (hreq "dR" (by simp))
  obtain ⟨nR, hnR⟩ := (Dict.has_iff_exists _ _).1 (hreq "nR" (by simp))
  refine ⟨⟨dF, nF, dR, nR, _, _, hdF, hnF, hdR, hnR, h1, h2, ?_, ?_⟩, ?_, h6, ?_, ?_, ?_⟩
  · intro hn
    simp only [wheelRadius, Dict.getD, hdF, hnF, Option.getD_some]
    field_simp
  · intro hn
    simp only [wheelRadius, Dict.getD, hdR, hnR, Option.getD_some]
    field_simp
  · intro hw
    unfold frameGeometry at hfg
    simp only [hw, if_true] at hfg
    split at hfg
    · simp at hfg
    · rename_i hreq
      have hk := (Dict.require_ok_iff _ _).1 hreq
      obtain ⟨w', hw'⟩ := (Dict.has_iff_exists _ _).1 (hk "w" (by simp))
      obtain ⟨ga, hga⟩ := (Dict.has_iff_exists _ _).1 (hk "gamma" (by simp))
      simp only [Except.ok.injEq, Prod.mk.injEq, Dict.getD, hw', hga, Option.getD_some] at hfg
      obtain ⟨rfl, rfl, _⟩ := hfg
      refine ⟨by rw [h4, hw'], ga, _, hga, h3, ?_⟩
      ring
  · intro hx; rw [h7, hx]; simp
  · intro hx hz; rw [h8, hx, hz]; simp
  · intro hx; rw [h7, h8, hx]; simp

/-- **C12.** A missing measurement raises `KeyError` naming a key that is absent. -/
theorem C12_missing_measurement (newton : (ℝ → ℝ) → ℝ → Except PyErr ℝ) (mp par : Dict ℝ)
    (hm : ∃ k ∈ ["dF", "nF", "dR", "nR"] ++ (if Dict.has mp "w" then ["gamma", "f"] else
      ["h1", "h2", "h3", "h4", "h5", "d1", "d2", "d3", "d4", "d"]), Dict.has mp k = false) :
    ∃ k, calculateBenchmarkGeometry newton mp par = .error (.keyError k) ∧ Dict.has mp k = false := by
  obtain ⟨k, hk, hkm⟩ := hm
  unfold calculateBenchmarkGeometry
  cases hr : Dict.require mp ["dF", "nF", "dR", "nR"] with
  | error e =>
    obtain ⟨k', _, rfl, h2⟩ := Dict.require_error _ _ _ hr
    exact ⟨k', rfl, h2⟩
  | ok u =>
    have hall := (Dict.require_ok_iff _ _).1 hr
    simp only []
    have hk' : k ∈ (if Dict.has mp "w" then ["gamma", "f"] else
      ["h1", "h2", "h3", "h4", "h5", "d1", "d2", "d3", "d4", "d"]) := by
      rcases List.mem_append.1 hk with h | h
      · rw [hall k h] at hkm; simp at hkm
      · exact h
    have hfg : ∀ rF rR, ∃ k, frameGeometry newton mp rF rR = .error (.keyError k) ∧
        Dict.has mp k = false := by
      intro rF rR
      unfold frameGeometry
      by_cases hw : Dict.has mp "w" = true
      · simp only [hw, if_true] at hk' ⊢
        cases hr : Dict.require mp ["gamma", "w", "f"] with
        | error e =>
          obtain ⟨k', _, rfl, h2⟩ := Dict.require_error _ _ _ hr
          exact ⟨k', rfl, h2⟩
        | ok u =>
          have := (Dict.require_ok_iff _ _).1 hr k (by
            simp only [List.mem_cons, List.not_mem_nil, or_false] at hk' ⊢; tauto)
          rw [this] at hkm; simp at hkm
      · simp only [hw, if_false] at hk' ⊢
        cases hr : Dict.require mp ["h1", "h2", "h3", "h4", "h5", "d1", "d2", "d3", "d4", "d"] with
        | error e =>
          obtain ⟨k', _, rfl, h2⟩ := Dict.require_error _ _ _ hr
          exact ⟨k', rfl, h2⟩
        | ok u =>
          have := (Dict.require_ok_iff _ _).1 hr k (by simpa using hk')
          rw [this] at hkm; simp at hkm
    obtain ⟨k', h1, h2⟩ := hfg (wheelRadius (Dict.getD mp "dF" 0) (Dict.getD mp "nF" 0))
      (wheelRadius (Dict.getD mp "dR" 0) (Dict.getD mp "nR" 0))
    rw [h1]
    exact ⟨k', rfl, h2⟩

/-- non-vacuity of C12: a complete set of measurements with a wheelbase succeeds -/
example (newton) : ∃ out, calculateBenchmarkGeometry newton [("dF", 2), ("nF", 1), ("dR", 2), ("nR", 1),
    ("w", 1), ("gamma", 70), ("f", 0), ("xcl", 3)] [("mB", 5)] = .ok out := by
  simp only [calculateBenchmarkGeometry, frameGeometry, Dict.require, Dict.find?, Dict.has,
    String.reduceEq, if_true, if_false, Option.isSome_some]
  exact ⟨_, rfl⟩

/-! ## C14 -/

/-- **C14.** The projection lies on the line, is closer to the point than every other
point of the line, and is its own projection. -/
theorem C14_projection (m b c d : ℝ) :
    let r := projectPointOnLine (m, b) (c, d)
    r.2 = m * r.1 + b ∧
    (∀ x : ℝ, (r.1 - c) ^ 2 + (r.2 - d) ^ 2 + (1 + m ^ 2) * (x - r.1) ^ 2 =
      (x - c) ^ 2 + (m * x + b - d) ^ 2) ∧
    (∀ x : ℝ, (r.1 - c) ^ 2 + (r.2 - d) ^ 2 ≤ (x - c) ^ 2 + (m * x + b - d) ^ 2) ∧
    projectPointOnLine (m, b) r = r := by
  have hm : m ^ 2 + 1 ≠ 0 := by positivity
  have key : ∀ x : ℝ, ((m * d + c - m * b) / (m ^ 2 + 1) - c) ^ 2 +
      ((m ^ 2 * d + m * c + b) / (m ^ 2 + 1) - d) ^ 2 +
      (1 + m ^ 2) * (x - (m * d + c - m * b) / (m ^ 2 + 1)) ^ 2 =
      (x - c) ^ 2 + (m * x + b - d) ^ 2 := by
    intro x; field_simp; ring
  refine ⟨?_, key, ?_, ?_⟩
  · simp only [projectPointOnLine]; field_simp; ring
  · intro x
    have := key x
    simp only [projectPointOnLine]
    nlinarith [sq_nonneg (x - (m * d + c - m * b) / (m ^ 2 + 1)), sq_nonneg m]
  · simp only [projectPointOnLine]
    refine Prod.ext ?_ ?_ <;> simp only [] <;> field_simp <;> ring

example : projectPointOnLine (1, 0) (0, 2) = (1, 1) := by norm_num [projectPointOnLine]

/-! ## C15 -/

theorem norm3_pos (v : Fin 3 → ℝ) (h : v ≠ 0) : 0 < norm3 v := by
  unfold norm3
  apply Real.sqrt_pos.2
  have h1 : 0 ≤ v ⬝ᵥ v := by
    simp only [dotProduct, Fin.sum_univ_three]; nlinarith [sq_nonneg (v 0), sq_nonneg (v 1), sq_nonneg (v 2)]
  refine lt_of_le_of_ne h1 fun hc => h (funext fun i => ?_)
  simp only [dotProduct, Fin.sum_univ_three] at hc
  fin_cases i <;> simp <;> nlinarith [sq_nonneg (v 0), sq_nonneg (v 1), sq_nonneg (v 2)]

theorem norm3_smul (k : ℝ) (v : Fin 3 → ℝ) : norm3 (k • v) = |k| * norm3 v := by
  unfold norm3
  rw [← Real.sqrt_sq_eq_abs, ← Real.sqrt_mul (sq_nonneg k)]
  congr 1
  simp [dotProduct, Fin.sum_univ_three]; ring

theorem norm3_sq (v : Fin 3 → ℝ) : norm3 v ^ 2 = v ⬝ᵥ v := by
  unfold norm3
  apply Real.sq_sqrt
  simp only [dotProduct, Fin.sum_univ_three]; nlinarith [sq_nonneg (v 0), sq_nonneg (v 1), sq_nonneg (v 2)]

/-- **C15.** The angle is in [0, π], symmetric, and satisfies `v1·v2 = |v1||v2| cos θ`
(so the argument of arccos is never outside [-1, 1]). -/
theorem C15_angle_law (v1 v2 : Fin 3 → ℝ) :
    0 ≤ vecAngle v1 v2 ∧ vecAngle v1 v2 ≤ π ∧ vecAngle v1 v2 = vecAngle v2 v1 ∧
    (v1 ≠ 0 → v2 ≠ 0 → |(v1 ⬝ᵥ v2) / (norm3 v1 * norm3 v2)| ≤ 1 ∧
      v1 ⬝ᵥ v2 = norm3 v1 * norm3 v2 * cos (vecAngle v1 v2)) := by
  refine ⟨Real.arccos_nonneg _, Real.arccos_le_pi _, ?_, ?_⟩
  · unfold vecAngle; rw [dotProduct_comm, mul_comm]
  · intro h1 h2
    have p1 := norm3_pos v1 h1
    have p2 := norm3_pos v2 h2
    have hcs : (v1 ⬝ᵥ v2) ^ 2 ≤ (norm3 v1 * norm3 v2) ^ 2 := by
      rw [mul_pow, norm3_sq, norm3_sq]
      simp only [dotProduct, Fin.sum_univ_three]
      nlinarith [sq_nonneg (v1 0 * v2 1 - v1 1 * v2 0), sq_nonneg (v1 0 * v2 2 - v1 2 * v2 0),
        sq_nonneg (v1 1 * v2 2 - v1 2 * v2 1)]
    have hab : |(v1 ⬝ᵥ v2) / (norm3 v1 * norm3 v2)| ≤ 1 := by
      rw [abs_div, abs_of_pos (mul_pos p1 p2), div_le_one (mul_pos p1 p2)]
      exact abs_le_of_sq_le_sq hcs (mul_pos p1 p2).le
    refine ⟨hab, ?_⟩
    unfold vecAngle
    rw [Real.cos_arccos (abs_le.1 hab).1 (abs_le.1 hab).2]
    field_simp

/-- **C15.** Positive rescaling of the arguments does not change the angle. -/
theorem C15_angle_scale (v1 v2 : Fin 3 → ℝ) (a b : ℝ) (ha : 0 < a) (hb : 0 < b) :
    vecAngle (a • v1) (b • v2) = vecAngle v1 v2 := by
  unfold vecAngle
  rw [norm3_smul, norm3_smul, abs_of_pos ha, abs_of_pos hb]
  congr 1
  rw [smul_dotProduct, dotProduct_smul, smul_eq_mul, smul_eq_mul]
  by_cases h : norm3 v1 * norm3 v2 = 0
  · have : a * norm3 v1 * (b * norm3 v2) = 0 := by
      rw [show a * norm3 v1 * (b * norm3 v2) = a * b * (norm3 v1 * norm3 v2) by ring, h, mul_zero]
    rw [h, this]; simp
  · have h1 : norm3 v1 ≠ 0 := left_ne_zero_of_mul h
    have h2 : norm3 v2 ≠ 0 := right_ne_zero_of_mul h
    field_simp

/-- **C15.** Parallel vectors are at angle 0, opposite ones at π. -/
theorem C15_parallel_and_opposite (v : Fin 3 → ℝ) (hv : v ≠ 0) (a : ℝ) (ha : 0 < a) :
    vecAngle v (a • v) = 0 ∧ vecAngle v (-(a • v)) = π := by
  have hp := norm3_pos v hv
  have hd : v ⬝ᵥ v = norm3 v ^ 2 := (norm3_sq v).symm
  constructor
  · unfold vecAngle
    rw [norm3_smul, abs_of_pos ha, dotProduct_smul, smul_eq_mul, hd,
      show a * norm3 v ^ 2 / (norm3 v * (a * norm3 v)) = 1 by field_simp, Real.arccos_one]
  · unfold vecAngle
    rw [← neg_smul, norm3_smul, abs_neg, abs_of_pos ha, dotProduct_smul, smul_eq_mul, hd,
      show -a * norm3 v ^ 2 / (norm3 v * (a * norm3 v)) = -1 by field_simp, Real.arccos_neg_one]

example : (![1, 2, 3] : Fin 3 → ℝ) ≠ 0 := by intro h; simpa using congrFun h 0

/-! ## C16 -/

/-- What `vec_project` promises: the result is perpendicular to the direction and
differs from the vector by a multiple of the direction. -/
def IsPlaneProjection (vec dir out : Fin 3 → ℝ) : Prop :=
  out ⬝ᵥ dir = 0 ∧ ∃ t : ℝ, vec - out = t • dir

/-- **C16 is false** for coordinate directions: all components are shifted. -/
theorem C16_int_direction_is_not_a_projection :
    ∃ (vec out : Fin 3 → ℝ), vecProject vec (.int 0) = .ok out ∧
      ¬ IsPlaneProjection vec (Pi.single 0 1) out := by
  refine ⟨![1, 2, 3], ![0, 1, 2], ?_, ?_⟩
  · have : pyIndex3 0 = some 0 := by decide
    simp only [vecProject, this, Except.ok.injEq]
    ext i; fin_cases i <;> simp <;> norm_num
  · rintro ⟨_, t, ht⟩
    have := congrFun ht 1
    simp at this
    norm_num at this

/-- **C16 is false** for array directions: the call always raises. -/
theorem C16_array_direction_raises (vec d : Fin 3 → ℝ) :
    vecProject vec (.array d) = .error .unboundLocal := rfl

/-- **C16 (partial).** For a coordinate direction that coordinate of the result is zero;
the result is the promised projection iff that coordinate of the vector was zero already. -/
theorem C16_int_direction_partial (vec : Fin 3 → ℝ) (i : ℤ) (k : Fin 3) (hk : pyIndex3 i = some k) :
    ∃ out, vecProject vec (.int i) = .ok out ∧ out k = 0 ∧
      (IsPlaneProjection vec (Pi.single k 1) out ↔ vec k = 0) := by
  refine ⟨fun j => vec j - vec ⬝ᵥ Pi.single k 1, by simp only [vecProject, hk], by simp, ?_⟩
  constructor
  · rintro ⟨_, t, ht⟩
    have h0 := congrFun ht (k + 1)
    have : k + 1 ≠ k := by fin_cases k <;> decide
    simpa [this] using h0
  · intro h0
    refine ⟨by simp, 0, ?_⟩
    ext j; simp [h0]

example : pyIndex3 (-1) = some 2 := by decide

/-! ## C17 -/

/-- **C17.** `l1` and `l2` are the legs of the right triangle whose hypotenuse is the
distance between the two centres; `l2 ≥ 0` when that distance is positive. -/
theorem C17_l1_l2_pythagoras (h6 h7 d5 d6 l l1 l2 : ℝ)
    (h : calculateL1L2 h6 h7 d5 d6 l = .ok (l1, l2)) :
    l1 ^ 2 + l2 ^ 2 = (l - d5 / 2 - d6 / 2) ^ 2 ∧ (h7 - d6 / 2) - (h6 - d5 / 2) = l1 ∧
    (0 < l - d5 / 2 - d6 / 2 → 0 ≤ l2) := by
  unfold calculateL1L2 at h
  simp only [] at h
  split at h
  · simp at h
  · rename_i h0
    split at h
    · simp at h
    · rename_i hr
      push Not at hr
      simp only [Except.ok.injEq, Prod.mk.injEq] at h
      obtain ⟨rfl, rfl⟩ := h
      refine ⟨?_, by ring, fun hp => mul_nonneg hp.le (Real.cos_arcsin_nonneg _)⟩
      set L := l - d5 / 2 - d6 / 2
      set q := h7 - h6 + d5 / 2 - d6 / 2
      have hs := Real.sin_arcsin hr.1 hr.2
      have hsc := sin_sq_add_cos_sq (arcsin (q / L))
      rw [hs] at hsc
      have : q = q / L * L := by field_simp
      rw [mul_pow]
      have h3 : q ^ 2 = (q / L) ^ 2 * L ^ 2 := by rw [← mul_pow, ← this]
      rw [h3]
      linear_combination L ^ 2 * hsc

/-- **C17.** The handlebar reference point `(w - u1, -(rF + u2))` is the front wheel
centre moved by `l1` forward of and `l2` up along the steer axis: the map is a rotation. -/
theorem C17_handlebar_reference_rotates (lam l1 l2 u1 u2 : ℝ)
    (h : fwheelToHandlebarRef lam l1 l2 = .ok (u1, u2)) (w rF xg : ℝ) :
    u1 ^ 2 + u2 ^ 2 = l1 ^ 2 + l2 ^ 2 ∧
    aheadOfAxis xg lam (w - u1) (-(rF + u2)) = aheadOfAxis xg lam w (-rF) + l1 ∧
    alongAxis lam (w - u1) (-(rF + u2)) = alongAxis lam w (-rF) - l2 := by
  unfold fwheelToHandlebarRef at h
  simp only [] at h
  split at h
  · simp at h
  · rename_i hs
    simp only [Except.ok.injEq, Prod.mk.injEq] at h
    obtain ⟨rfl, rfl⟩ := h
    have hsc := sin_sq_add_cos_sq lam
    have hu2 : (l2 * sin lam - l1 * cos lam) / tan lam + l1 / sin lam = l2 * cos lam + l1 * sin lam := by
      by_cases hc : cos lam = 0
      · rw [Real.tan_eq_sin_div_cos, hc]
        have : sin lam ^ 2 = 1 := by rw [hc] at hsc; linarith
        field_simp
        simp
        linear_combination (-l1) * this
      · rw [Real.tan_eq_sin_div_cos]
        field_simp
        linear_combination (-l1) * hsc
    rw [hu2]
    refine ⟨?_, ?_, ?_⟩
    · linear_combination (l1 ^ 2 + l2 ^ 2) * hsc
    · simp only [aheadOfAxis]
      linear_combination l1 * hsc
    · simp only [alongAxis]
      linear_combination -l2 * hsc

/-- A vertical steer axis makes the call fail. -/
theorem C17_zero_tilt_raises (l1 l2 : ℝ) : fwheelToHandlebarRef 0 l1 l2 = .error .zeroDivision := by
  simp [fwheelToHandlebarRef]

example : ∃ r, calculateL1L2 0 3 0 0 5 = .ok r ∧ r.1 = 3 := by
  refine ⟨(3, 5 * cos (arcsin (3 / 5))), by norm_num [calculateL1L2], by norm_num⟩

/-! ## C18 -/

/-- The end of a two-link chain whose first link points at angle `θ1` and whose second
link is turned back by `θ2` lies at distance `D` on the x axis. -/
def ChainCloses (L1 L2 D θ1 θ2 : ℝ) : Prop :=
  L1 * cos θ1 + L2 * cos (θ1 - θ2) = D ∧ L1 * sin θ1 + L2 * sin (θ1 - θ2) = 0

/-- **C18 (partial).** For lengths of a triangle, the chain closes iff the angle at the
end is not obtuse: `L1² ≤ D² + L2²`. -/
theorem C18_two_links_close_iff_partial (L1 L2 D : ℝ) (h1 : 0 < L1) (h2 : 0 < L2) (hD : 0 < D)
    (ht1 : D ≤ L1 + L2) (ht2 : L1 ≤ D + L2) (ht3 : L2 ≤ D + L1) :
    ChainCloses L1 L2 D (calcTwoLinkAngles L1 L2 D).1 (calcTwoLinkAngles L1 L2 D).2 ↔
      L1 ^ 2 ≤ D ^ 2 + L2 ^ 2 := by
  set q := (L1 ^ 2 + D ^ 2 - L2 ^ 2) / (2 * L1 * D) with hq
  have hpos : 0 < 2 * L1 * D := by positivity
  have hq1 : -1 ≤ q := by
    rw [hq, le_div_iff₀ hpos]; nlinarith
  have hq2 : q ≤ 1 := by
    rw [hq, div_le_iff₀ hpos]; nlinarith
  have hcos : cos (arccos q) = q := Real.cos_arccos hq1 hq2
  have hsin0 : 0 ≤ sin (arccos q) := Real.sin_nonneg_of_nonneg_of_le_pi (Real.arccos_nonneg _) (Real.arccos_le_pi _)
  have hsc := sin_sq_add_cos_sq (arccos q)
  rw [hcos] at hsc
  set s := sin (arccos q) with hs
  have hL : 2 * L1 * D * q = L1 ^ 2 + D ^ 2 - L2 ^ 2 := by rw [hq]; field_simp
  -- (D - L1 q)² + (L1 s)² = L2²
  have htri : (D - L1 * q) ^ 2 + (L1 * s) ^ 2 = L2 ^ 2 := by
    linear_combination L1 ^ 2 * hsc - hL
  have hr1 : L1 / L2 * s ≤ 1 := by
    rw [div_mul_eq_mul_div, div_le_one h2]
    nlinarith [sq_nonneg (D - L1 * q), mul_nonneg h1.le hsin0]
  have hr0 : -1 ≤ L1 / L2 * s := by
    have : 0 ≤ L1 / L2 * s := by positivity
    linarith
  have hasin : sin (arcsin (L1 / L2 * s)) = L1 / L2 * s := Real.sin_arcsin hr0 hr1
  have hcos2 : L2 * cos (arcsin (L1 / L2 * s)) = |D - L1 * q| := by
    rw [Real.cos_arcsin, ← Real.sqrt_sq_eq_abs, ← Real.sqrt_sq h2.le, ← Real.sqrt_mul (sq_nonneg L2),
      Real.sqrt_sq h2.le]
    congr 1
    field_simp
    linarith
  have hdiff : (calcTwoLinkAngles L1 L2 D).1 - (calcTwoLinkAngles L1 L2 D).2 =
      -arcsin (L1 / L2 * s) := by
    simp only [calcTwoLinkAngles, ← hq, ← hs]; ring
  have hfirst : (calcTwoLinkAngles L1 L2 D).1 = arccos q := rfl
  unfold ChainCloses
  rw [hdiff, hfirst, Real.cos_neg, Real.sin_neg, hasin, hcos2, hcos, ← hs]
  constructor
  · rintro ⟨hx, _⟩
    have : 0 ≤ D - L1 * q := by
      have := abs_nonneg (D - L1 * q); linarith
    nlinarith
  · intro hle
    have : 0 ≤ D - L1 * q := by
      by_contra hc
      push Not at hc
      nlinarith
    refine ⟨by rw [abs_of_nonneg this]; ring, by field_simp; ring⟩

/-- **C18 is false** in general: links 5 and 3 with `D = 3` (a triangle, obtuse at the
end of the second link). -/
theorem C18_two_links_do_not_close :
    ∃ L1 L2 D : ℝ, 0 < L1 ∧ 0 < L2 ∧ 0 < D ∧ D ≤ L1 + L2 ∧ L1 ≤ D + L2 ∧ L2 ≤ D + L1 ∧
      ¬ ChainCloses L1 L2 D (calcTwoLinkAngles L1 L2 D).1 (calcTwoLinkAngles L1 L2 D).2 := by
  refine ⟨5, 3, 3, by norm_num, by norm_num, by norm_num, by norm_num, by norm_num, by norm_num, ?_⟩
  rw [C18_two_links_close_iff_partial 5 3 3 (by norm_num) (by norm_num) (by norm_num) (by norm_num)
    (by norm_num) (by norm_num)]
  norm_num

/-- Both returned angles are non-negative, as documented (C18). -/
theorem C18_angles_nonneg (L1 L2 D : ℝ) (h1 : 0 ≤ L1) (h2 : 0 ≤ L2) :
    0 ≤ (calcTwoLinkAngles L1 L2 D).1 ∧ 0 ≤ (calcTwoLinkAngles L1 L2 D).2 := by
  have ha : 0 ≤ (calcTwoLinkAngles L1 L2 D).1 := Real.arccos_nonneg _
  refine ⟨ha, ?_⟩
  have hs : 0 ≤ sin (calcTwoLinkAngles L1 L2 D).1 :=
    Real.sin_nonneg_of_nonneg_of_le_pi ha (Real.arccos_le_pi _)
  exact add_nonneg ha (Real.arcsin_nonneg.2 (mul_nonneg (div_nonneg h1 h2) hs))

/-- non-vacuity of C18: the 3-4-5 triangle closes -/
example : ChainCloses 3 4 5 (calcTwoLinkAngles 3 4 5).1 (calcTwoLinkAngles 3 4 5).2 :=
  (C18_two_links_close_iff_partial 3 4 5 (by norm_num) (by norm_num) (by norm_num) (by norm_num)
    (by norm_num) (by norm_num)).2 (by norm_num)

/-! ## C19 -/

/-- **C19.** The plotted polyline starts at the rear wheel centre, ends at the front
wheel centre, and its two inner points are the feet of the perpendiculars from the wheel
centres on the steer axis, which is tilted by `lam` and meets the ground at `w + c`. -/
theorem C19_plot_points (w c lam rR rF : ℝ) (h : cos lam ≠ 0) :
    ∃ p1 p2 : ℝ × ℝ,
      fundamentalGeometryPlotData w c lam rR rF = [(0, -rR), p1, p2, (w, -rF)] ∧
      aheadOfAxis (w + c) lam p1.1 p1.2 = 0 ∧ aheadOfAxis (w + c) lam p2.1 p2.2 = 0 ∧
      alongAxis lam p1.1 p1.2 = alongAxis lam 0 (-rR) ∧
      alongAxis lam p2.1 p2.2 = alongAxis lam w (-rF) := by
  have hsc := sin_sq_add_cos_sq lam
  have ht : cos lam * tan lam = sin lam := by rw [Real.tan_eq_sin_div_cos]; field_simp
  refine ⟨_, _, rfl, ?_, ?_, ?_, ?_⟩ <;> simp only [aheadOfAxis, alongAxis]
  · linear_combination (cos lam * (c + w - rR * tan lam)) * hsc - rR * ht
  · linear_combination (cos lam * (c - rF * tan lam)) * hsc - rF * ht
  · ring
  · ring

end BP
