import Verif.Props.LeanNewtonEuler
import Verif.Props.RiderLean

/-!
# The rider lean model of models.py is Newton-Euler: C104
-/

set_option linter.unusedSimpArgs false

namespace BP

open Matrix Real Spec EL

/-- models.py:1429-1432, 1445-1448 with _mooreriderlean2012.py: `eval_linear` called with the
parameters as a list of numbers; of the four matrices `A` and `B` are used.  `junk` is what the
memory that the code allocates holds before it is written to. -/
noncomputable def generatedLinear (pitch : ℝ → ℝ → ℝ → ℝ → ℝ → ℝ → ℝ → ℝ) (junk : ℕ → ℝ)
    (q : Fin 9 → ℝ) (u r : Fin 4 → ℝ) (ps : List ℝ) : Linear13 :=
  let R := evalLinear real pitch junk q u r fun k => ps.getD k 0
  (R.A, R.B)

/-- The number stored under a name. -/
noncomputable def Spec.valueIn (D : Dict SVal) (k : String) : ℝ := Dict.getD (nums D) k 0

/-- The slices of a result. -/
def Spec.slices {α : Type} : Stack α → List α
  | .one a => [a]
  | .many as => as

/-- What is assumed about the parameters: `pitch`, the function of DynamicistToolKit, returns the
tilt `lam` with which the front wheel stands on the ground, with the wheelbase `w` and the trail
`c`; the wheels have a radius; no motion is without inertia. -/
structure Spec.LeanUsable (pitch : ℝ → ℝ → ℝ → ℝ → ℝ → ℝ → ℝ → ℝ) (f : String → ℝ) (lam w c : ℝ) : Prop where
  pitch : pitch 0 0 (f "rf") (f "rr") (f "d1") (f "d2") (f "d3") = lam
  stands : (LeanPar.of f).Stands lam w c
  wheelbase : w ≠ 0
  front : f "rf" ≠ 0
  rear : f "rr" ≠ 0
  drive : (LeanPar.of f).driveInertia ≠ 0
  massive : (LeanPar.of f).Massive lam w c

theorem slots_getD (f : String → ℝ) (k : Fin 36) : (evalLinearSlots.map f).getD k 0 = slotVector f k := by
  rw [slotVector]
  fin_cases k <;> rfl

theorem mulVec_insert {n m : ℕ} (A : Matrix (Fin (m + 1)) (Fin (n + 1)) ℝ) (k : Fin (n + 1)) (x : Fin n → ℝ)
    (i : Fin (m + 1)) :
    (A *ᵥ Fin.insertNth k (0 : ℝ) x) i = ∑ j, A i (k.succAbove j) * x j := by
  rw [Matrix.mulVec, dotProduct, Fin.sum_univ_succAbove _ k]
  simp

theorem leanOf_motion_iff (pitch : ℝ → ℝ → ℝ → ℝ → ℝ → ℝ → ℝ → ℝ) (junk : ℕ → ℝ) (D : Dict SVal) (lam w c : ℝ)
    (h : LeanUsable pitch (valueIn D) lam w c) (x : ℝ → Fin 12 → ℝ) (T : ℝ → Fin 3 → ℝ) :
    let AB := leanOf pitch (generatedLinear pitch junk) D
    (∀ t, HasDerivAt x (AB.1 *ᵥ x t + AB.2 *ᵥ T t) t) ↔
    LeanMotion (LeanPar.of (valueIn D)) lam w c (-valueIn D "v" / valueIn D "rr")
      (fun t => Fin.insertNth 4 (0 : ℝ) (x t)) (fun t => Fin.insertNth 1 (0 : ℝ) (T t)) := by
  intro AB
  obtain ⟨hp, hs, hw, hrf, -, hJ, hM⟩ := h
  have e := lean_motion_iff pitch junk (valueIn D) lam w c (-valueIn D "v" / valueIn D "rr") hp hs hw hrf hJ hM
    (fun t => Fin.insertNth 4 (0 : ℝ) (x t)) (fun t => Fin.insertNth 1 (0 : ℝ) (T t))
  have z := fun t => (upright_rhs pitch junk (valueIn D) lam w c (-valueIn D "v" / valueIn D "rr") hp hs hw hrf hJ hM
    (Fin.insertNth 4 (0 : ℝ) (x t)) (Fin.insertNth 1 (0 : ℝ) (T t))).2.2.2.2.1
  obtain ⟨R, hR⟩ : ∃ R, R = evalLinear real pitch junk ![0, 0, 0, 0, lam, 0, 0, 0, 0]
    ![0, -valueIn D "v" / valueIn D "rr", 0, 0] 0 (slotVector (valueIn D)) := ⟨_, rfl⟩
  simp only [← hR] at e z
  have hAB : AB = (R.A.submatrix (Fin.succAbove 4) (Fin.succAbove 4),
      R.B.submatrix (Fin.succAbove 4) (Fin.succAbove 1)) := by
    have e1 : (fun k : Fin 36 => (evalLinearSlots.map (valueIn D)).getD k 0) = slotVector (valueIn D) :=
      funext (slots_getD _)
    have e2 : (![0, 0, 0, 0] : Fin 4 → ℝ) = 0 := by ext i; fin_cases i <;> rfl
    have e3 : leanOf pitch (generatedLinear pitch junk) D =
      (let l := generatedLinear pitch junk ![0, 0, 0, 0, pitch 0 0 (valueIn D "rf") (valueIn D "rr")
          (valueIn D "d1") (valueIn D "d2") (valueIn D "d3"), 0, 0, 0, 0]
        ![0, -valueIn D "v" / valueIn D "rr", 0, 0] ![0, 0, 0, 0] (evalLinearSlots.map (valueIn D))
       (l.1.submatrix (Fin.succAbove 4) (Fin.succAbove 4), l.2.submatrix (Fin.succAbove 4) (Fin.succAbove 1))) := rfl
    rw [show AB = leanOf pitch (generatedLinear pitch junk) D from rfl, e3]
    simp only [generatedLinear, e1, e2, hp, hR]
  rw [← e, hAB]
  simp only [hasDerivAt_pi]
  refine forall_congr' fun t => ?_
  constructor
  · intro hx i
    induction i using Fin.succAboveCases (4 : Fin 13) with
    | x =>
      rw [z t]
      simp only [Fin.insertNth_apply_same]
      exact hasDerivAt_const t 0
    | p i =>
      simp only [Fin.insertNth_apply_succAbove, Pi.add_apply, mulVec_insert]
      exact hx i
  · intro hx i
    have := hx (Fin.succAbove 4 i)
    simp only [Fin.insertNth_apply_succAbove, Pi.add_apply, mulVec_insert] at this
    exact this

/-- **C104.** What `form_state_space_matrices` of the rider lean model returns, for all stored
parameters and keyword arguments, are the Newton-Euler equations, linearised about upright riding
at the speed `v`: in every slice `x' = A x + B u` if and only if `x` is such a motion. -/
theorem C104_newton_euler (pitch : ℝ → ℝ → ℝ → ℝ → ℝ → ℝ → ℝ → ℝ) (junk : ℕ → ℝ)
    (h : Heap) (s : ℕ) (stored : Dict SVal) (ov : Dict OVal) (n : ℕ)
    (hs : h[s]? = some (stored.map fun e => (e.1, .num e.2))) (hn : ov.keys.Nodup)
    (hc : Compatible stored ov n) (hD : ∀ k ∈ leanKeys, stored.has k = true) :
    ∃ ext res, formRiderLeanMatrices pitch (generatedLinear pitch junk) s ov h = (.ok res, h ++ ext) ∧
      ((∃ k, Swept stored ov k) → (slices res).length = n) ∧
      ((¬ ∃ k, Swept stored ov k) → (slices res).length = 1) ∧
      ∀ (i : ℕ) (A : Matrix (Fin 12) (Fin 12) ℝ) (B : Matrix (Fin 12) (Fin 3) ℝ), (slices res)[i]? = some (A, B) →
      ∀ lam w c, LeanUsable pitch (valueIn (evaluatedAt stored ov i)) lam w c →
      ∀ (x : ℝ → Fin 12 → ℝ) (T : ℝ → Fin 3 → ℝ),
      let f := valueIn (evaluatedAt stored ov i)
      (∀ t, HasDerivAt x (A *ᵥ x t + B *ᵥ T t) t) ↔
      LeanMotion (LeanPar.of f) lam w c (-f "v" / f "rr")
        (fun t => Fin.insertNth 4 (0 : ℝ) (x t)) (fun t => Fin.insertNth 1 (0 : ℝ) (T t)) := by
  obtain ⟨ext, e⟩ := C69_rider_lean_matrices pitch (generatedLinear pitch junk) h s stored ov n hs hn hc hD
  refine ⟨ext, _, e, ?_⟩
  split_ifs with hk
  · refine ⟨fun _ => by simp [slices], fun h => absurd hk h, fun i A B hi lam w c hu x T => ?_⟩
    simp only [slices, List.getElem?_map, Option.map_eq_some_iff] at hi
    obtain ⟨j, hj, e⟩ := hi
    have hij : j = i := by
      obtain ⟨h1, h2⟩ := List.getElem?_eq_some_iff.1 hj
      rw [List.getElem_range] at h2
      exact h2.symm
    subst hij
    have := leanOf_motion_iff pitch junk _ lam w c hu x T
    rw [e] at this
    exact this
  · refine ⟨fun h => absurd h hk, fun _ => by simp [slices], fun i A B hi lam w c hu x T => ?_⟩
    have hi0 : i = 0 := by
      obtain ⟨h1, -⟩ := List.getElem?_eq_some_iff.1 hi
      simp only [slices, List.length_cons, List.length_nil] at h1
      omega
    subst hi0
    have e : leanOf pitch (generatedLinear pitch junk) (evaluatedAt stored ov 0) = (A, B) := by
      simpa [slices] using hi
    have := leanOf_motion_iff pitch junk _ lam w c hu x T
    rw [e] at this
    exact this

/-! ### The hypotheses of C104 hold for physical bicycles -/

theorem energy_nonneg {b : Body} {v ω : V3} (hm : 0 ≤ b.m) (hI : 0 ≤ ω ⬝ᵥ (b.I *ᵥ ω)) : 0 ≤ b.energy v ω := by
  have : 0 ≤ v ⬝ᵥ v := by
    simp only [dotProduct, Fin.sum_univ_three]
    nlinarith [mul_self_nonneg (v 0), mul_self_nonneg (v 1), mul_self_nonneg (v 2)]
  rw [Body.energy]; positivity

theorem energy_pos {b : Body} {v ω : V3} (hm : 0 ≤ b.m) (hI : 0 < ω ⬝ᵥ (b.I *ᵥ ω)) : 0 < b.energy v ω := by
  have : 0 ≤ v ⬝ᵥ v := by
    simp only [dotProduct, Fin.sum_univ_three]
    nlinarith [mul_self_nonneg (v 0), mul_self_nonneg (v 1), mul_self_nonneg (v 2)]
  rw [Body.energy]; positivity

theorem frameTensor_form (lam a11 a22 a31 a33 x z : ℝ) :
    ![x, 0, z] ⬝ᵥ (frameTensor lam a11 a22 a31 a33 *ᵥ ![x, 0, z]) =
      a11 * (x * cos lam - z * sin lam) ^ 2 + 2 * a31 * (x * cos lam - z * sin lam) * (x * sin lam + z * cos lam) +
        a33 * (x * sin lam + z * cos lam) ^ 2 := by
  simp only [frameTensor, acrossDir, steerDir, yHat, dotProduct, Matrix.mulVec, Matrix.mul_apply, Fin.sum_univ_three,
    Matrix.transpose_apply, Matrix.of_apply]
  simp; ring

theorem rotated_ne (lam : ℝ) {x z : ℝ} (h : x ≠ 0 ∨ z ≠ 0) :
    x * cos lam - z * sin lam ≠ 0 ∨ x * sin lam + z * cos lam ≠ 0 := by
  by_contra hc
  push Not at hc
  obtain ⟨h1, h2⟩ := hc
  have hsc := sin_sq_add_cos_sq lam
  have hx : x = 0 := by linear_combination cos lam * h1 + sin lam * h2 - x * hsc
  have hz : z = 0 := by linear_combination cos lam * h2 - sin lam * h1 - z * hsc
  rcases h with h | h
  · exact h hx
  · exact h hz

theorem form_nonneg {a11 a31 a33 : ℝ} (h : ∀ a b : ℝ, a ≠ 0 ∨ b ≠ 0 → 0 < a11 * a ^ 2 + 2 * a31 * a * b + a33 * b ^ 2)
    (a b : ℝ) : 0 ≤ a11 * a ^ 2 + 2 * a31 * a * b + a33 * b ^ 2 := by
  by_cases hab : a ≠ 0 ∨ b ≠ 0
  · exact (h a b hab).le
  · push Not at hab; simp [hab.1, hab.2]

theorem wheel_form (a b x z : ℝ) :
    ![x, 0, z] ⬝ᵥ ((!![a, 0, 0; 0, b, 0; 0, 0, a] : Matrix (Fin 3) (Fin 3) ℝ) *ᵥ ![x, 0, z]) = a * x ^ 2 + a * z ^ 2 := by
  simp [dotProduct, Matrix.mulVec, Fin.sum_univ_three]; ring

theorem rider_form (a b d e x z : ℝ) :
    ![x, 0, z] ⬝ᵥ ((!![a, 0, d; 0, b, 0; d, 0, e] : Matrix (Fin 3) (Fin 3) ℝ) *ᵥ ![x, 0, z]) =
      a * x ^ 2 + 2 * d * x * z + e * z ^ 2 := by
  simp [dotProduct, Matrix.mulVec, Fin.sum_univ_three]; ring

/-- A physical bicycle has kinetic energy in every lateral motion. -/
theorem physical_massive {P : LeanPar} (h : P.Physical) (lam w c : ℝ) : P.Massive lam w c := by
  intro φ' ψ' δ' θ' hψ hne
  have e1 : ∀ v, 0 ≤ (⟨P.md, P.rearCentre, !![P.id11, 0, 0; 0, P.id22, 0; 0, 0, P.id11]⟩ : Body).energy v
      (omegaRear φ' ψ') := fun v => energy_nonneg h.md (by
    have := h.id11; rw [omegaRear, wheel_form]; positivity)
  have e4 : ∀ v, 0 ≤ (⟨P.mf, P.frontCentre lam, !![P.if11, 0, 0; 0, P.if22, 0; 0, 0, P.if11]⟩ : Body).energy v
      (omegaFront lam φ' ψ' δ') := fun v => energy_nonneg h.mf (by
    have := h.if11; rw [omegaFront_eq, wheel_form]; positivity)
  have e2 : ∀ v, 0 ≤ (P.rearFrame lam).energy v (omegaRear φ' ψ') := fun v => energy_nonneg h.mc (by
    rw [omegaRear, LeanPar.rearFrame, frameTensor_form]; exact form_nonneg h.ic _ _)
  have e3 : ∀ v, 0 ≤ (P.frontFrame lam).energy v (omegaFront lam φ' ψ' δ') := fun v => energy_nonneg h.me (by
    rw [omegaFront_eq, LeanPar.frontFrame, frameTensor_form]; exact form_nonneg h.ie _ _)
  have e5 : ∀ v, 0 ≤ P.rider.body.energy v (omegaRear (φ' + θ') ψ') := fun v => energy_nonneg h.mg (by
    rw [omegaRear, LeanPar.rider, rider_form]; exact form_nonneg h.ig _ _)
  have key : (∀ v, 0 < (P.rearFrame lam).energy v (omegaRear φ' ψ')) ∨
      (∀ v, 0 < (P.frontFrame lam).energy v (omegaFront lam φ' ψ' δ')) ∨
      (∀ v, 0 < P.rider.body.energy v (omegaRear (φ' + θ') ψ')) := by
    by_cases h1 : φ' ≠ 0 ∨ ψ' ≠ 0
    · left
      exact fun v => energy_pos h.mc (by
        rw [omegaRear, LeanPar.rearFrame, frameTensor_form]; exact h.ic _ _ (rotated_ne lam h1))
    · push Not at h1
      obtain ⟨h1, h2⟩ := h1
      subst h1 h2
      by_cases hd : δ' = 0
      · right; right
        have ht : θ' ≠ 0 := by simpa [hd] using hne
        exact fun v => energy_pos h.mg (by
          rw [omegaRear, LeanPar.rider, rider_form]; exact h.ig _ _ (Or.inl (by simpa using ht)))
      · right; left
        exact fun v => energy_pos h.me (by
          rw [omegaFront_eq, LeanPar.frontFrame, frameTensor_form]
          refine h.ie _ _ (Or.inr ?_)
          have hsc := sin_sq_add_cos_sq lam
          have : (0 + δ' * sin lam) * sin lam + (0 + δ' * cos lam) * cos lam = δ' := by
            linear_combination δ' * hsc
          rw [this]; exact hd)
  unfold LeanPar.energy LeanPar.rearBodies LeanPar.frontBodies
  simp only [List.map_cons, List.map_nil, List.sum_cons, List.sum_nil]
  rcases key with k | k | k
  · linarith [e1 (velRear φ' ψ' P.rearCentre), k (velRear φ' ψ' (P.rearFrame lam).r),
      e3 (velFront w c lam φ' ψ' δ' (P.frontFrame lam).r), e4 (velFront w c lam φ' ψ' δ' (P.frontCentre lam)),
      e5 (velRear φ' ψ' P.rider.body.r + rotVel ![θ', 0, 0] P.hinge P.rider.body.r)]
  · linarith [e1 (velRear φ' ψ' P.rearCentre), e2 (velRear φ' ψ' (P.rearFrame lam).r),
      k (velFront w c lam φ' ψ' δ' (P.frontFrame lam).r), e4 (velFront w c lam φ' ψ' δ' (P.frontCentre lam)),
      e5 (velRear φ' ψ' P.rider.body.r + rotVel ![θ', 0, 0] P.hinge P.rider.body.r)]
  · linarith [e1 (velRear φ' ψ' P.rearCentre), e2 (velRear φ' ψ' (P.rearFrame lam).r),
      e3 (velFront w c lam φ' ψ' δ' (P.frontFrame lam).r), e4 (velFront w c lam φ' ψ' δ' (P.frontCentre lam)),
      k (velRear φ' ψ' P.rider.body.r + rotVel ![θ', 0, 0] P.hinge P.rider.body.r)]

theorem physical_drive {P : LeanPar} (h : P.Physical) : P.driveInertia ≠ 0 := by
  obtain ⟨h1, h2, h3, h4, h5, -, -, h8, h9, -, -, -⟩ := h
  have : 0 < P.driveInertia := by
    rw [LeanPar.driveInertia]
    positivity
  exact this.ne'

/-- Non-vacuity of C104: a bicycle with vertical steer axis and a rider, at any speed. -/
theorem example_leanWheels (v : ℝ) : ∃ (f : String → ℝ) (w c : ℝ),
    LeanUsable (fun _ _ _ _ _ _ _ => 0) f 0 w c ∧ (LeanPar.of f).Physical ∧ c ≠ 0 ∧ f "v" = v ∧ f "mg" = 70 ∧
    0 < f "rf" ∧ 0 < f "rr" := by
  let f : String → ℝ := fun k =>
    if k = "v" then v else if k = "mg" then 70 else if k = "rf" then 1 / 3 else if k = "rr" then 1 / 3
    else if k = "d1" then 1 else if k = "d2" then 0 else if k = "d3" then -1 / 10
    else if k = "d4" then -1 / 2 else if k = "l6" then -1 / 2 else if k = "g" then 981 / 100
    else if k = "ic31" then 0 else if k = "ie31" then 0 else if k = "ig31" then 0 else 1
  have hP : (LeanPar.of f).Physical := by
    constructor <;> simp [LeanPar.of, f]
    all_goals
      intro a b hab
      rcases hab with hab | hab
      · have := sq_pos_of_ne_zero hab; positivity
      · have := sq_pos_of_ne_zero hab; positivity
  refine ⟨f, 9 / 10, 1 / 10, ⟨rfl, ⟨?_, 1 / 3, ?_⟩, by norm_num, by simp [f], by simp [f], physical_drive hP,
    physical_massive hP _ _ _⟩, hP, by norm_num, by simp [f], by simp [f], by simp [f], by simp [f]⟩
  · ext i; fin_cases i <;>
      simp [LeanPar.frontCentre, LeanPar.axisPoint, LeanPar.rearCentre, acrossDir, steerDir, LeanPar.of, f]
    norm_num
  · ext i; fin_cases i <;>
      simp [LeanPar.axisPoint, LeanPar.rearCentre, acrossDir, steerDir, LeanPar.of, f]
    norm_num

theorem example_leanUsable (v : ℝ) : ∃ (f : String → ℝ) (w c : ℝ),
    LeanUsable (fun _ _ _ _ _ _ _ => 0) f 0 w c ∧ (LeanPar.of f).Physical ∧ c ≠ 0 ∧ f "v" = v ∧ f "mg" = 70 := by
  obtain ⟨f, w, c, h1, h2, h3, h4, h5, -⟩ := example_leanWheels v
  exact ⟨f, w, c, h1, h2, h3, h4, h5⟩

end BP
