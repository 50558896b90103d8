import Mathlib.Tactic.FieldSimp
import Mathlib.Tactic.Ring
import Mathlib.Tactic.Linarith
import Mathlib.Tactic.LinearCombination
import Mathlib.Tactic.NormNum
import Mathlib.Data.Fintype.Perm
import Mathlib.Order.Fin.Basic
import Mathlib.Data.Fin.Tuple.Sort
import Mathlib.LinearAlgebra.Matrix.ToLinearEquiv
import Verif.Model.Inertia
import Verif.Lemmas.Canonical

/-!
# Properties of inertia.py: C20 to C27
-/

set_option linter.unusedSimpArgs false

namespace BP

open Real Matrix Spec

/-! ## C20 -/

/-- Moment of inertia about an axis through the reference point with direction `n`. -/
def axisMoment (I : Mat3) (n : Vec3) : ℝ := n ⬝ᵥ (I *ᵥ n)

/-- **C20.** For every axis direction the moment grows by `m |n × d|²`: for a unit vector
`n` that is `m` times the squared distance between the parallel axes. -/
theorem C20_parallel_axis_theorem (Ic : Mat3) (m : ℝ) (d n : Vec3) :
    axisMoment (parallelAxis Ic m d) n = axisMoment Ic n + m * ((n ⨯₃ d) ⬝ᵥ (n ⨯₃ d)) := by
  simp [axisMoment, parallelAxis, Matrix.mulVec, dotProduct, Fin.sum_univ_three, crossProduct]
  ring

/-- **C20.** Symmetry is preserved, reversing the offset changes nothing, no moment of
inertia decreases for `m ≥ 0`. -/
theorem C20_parallel_axis_laws (Ic : Mat3) (m : ℝ) (d : Vec3) :
    (Icᵀ = Ic → (parallelAxis Ic m d)ᵀ = parallelAxis Ic m d) ∧
    parallelAxis Ic m (-d) = parallelAxis Ic m d ∧
    parallelAxis Ic m 0 = Ic ∧
    (0 ≤ m → ∀ n, axisMoment Ic n ≤ axisMoment (parallelAxis Ic m d) n) := by
  refine ⟨?_, ?_, ?_, ?_⟩
  · intro h
    have h' : ∀ i j, Ic i j = Ic j i := fun i j => congrFun (congrFun h.symm i) j
    ext i j
    fin_cases i <;> fin_cases j <;> simp [parallelAxis] <;> exact h' _ _
  · ext i j
    fin_cases i <;> fin_cases j <;> simp [parallelAxis]
  · ext i j
    fin_cases i <;> fin_cases j <;> simp [parallelAxis]
  · intro hm n
    rw [C20_parallel_axis_theorem]
    have : 0 ≤ (n ⨯₃ d) ⬝ᵥ (n ⨯₃ d) := by
      simp only [dotProduct, Fin.sum_univ_three]
      nlinarith [sq_nonneg ((n ⨯₃ d) 0), sq_nonneg ((n ⨯₃ d) 1), sq_nonneg ((n ⨯₃ d) 2)]
    nlinarith [mul_nonneg hm this]

theorem parallelAxis_eq (Ic : Mat3) (m : ℝ) (d : Vec3) :
    parallelAxis Ic m d = Ic + m • ((d ⬝ᵥ d) • (1 : Mat3) - vecMulVec d d) := by
  ext i j
  fin_cases i <;> fin_cases j <;>
    simp [parallelAxis, dotProduct, Fin.sum_univ_three, vecMulVec, Matrix.one_apply,
      -mul_eq_mul_left_iff] <;> ring

/-- **C20.** Two bodies seen as one: moving the sum of the two tensors, taken about the
common mass centre, to the origin gives the sum of the two tensors about the origin. -/
theorem C20_parallel_axis_composite (I1 I2 : Mat3) (m1 m2 : ℝ) (c1 c2 c : Vec3)
    (hc : (m1 + m2) • c = m1 • c1 + m2 • c2) :
    parallelAxis (parallelAxis I1 m1 (c1 - c) + parallelAxis I2 m2 (c2 - c)) (m1 + m2) c =
      parallelAxis I1 m1 c1 + parallelAxis I2 m2 c2 := by
  have h : ∀ i, (m1 + m2) * c i = m1 * c1 i + m2 * c2 i := fun i => by
    have := congrFun hc i; simpa using this
  have h0 := h 0
  have h1 := h 1
  have h2 := h 2
  ext i j
  fin_cases i <;> fin_cases j <;> simp [parallelAxis, -mul_eq_mul_left_iff]
  · linear_combination 2 * c 1 * h1 + 2 * c 2 * h2
  · linear_combination (-c 1) * h0 - c 0 * h1
  · linear_combination (-c 2) * h0 - c 0 * h2
  · linear_combination (-c 1) * h0 - c 0 * h1
  · linear_combination 2 * c 0 * h0 + 2 * c 2 * h2
  · linear_combination (-c 2) * h1 - c 1 * h2
  · linear_combination (-c 2) * h0 - c 0 * h2
  · linear_combination (-c 2) * h1 - c 1 * h2
  · linear_combination 2 * c 0 * h0 + 2 * c 1 * h1

/-- non-vacuity of the composite law -/
example : ((1 : ℝ) + 3) • (![1, 0, 0] : Vec3) = (1 : ℝ) • ![4, 0, 0] + (3 : ℝ) • 0 := by
  ext i; fin_cases i <;> norm_num

/-! ## C21 -/

/-- A part as a rigid body. -/
def Part.body (p : Part) : Body := ⟨p.m, ![p.x, p.y, p.z], p.tensor⟩

theorem originInertia_eq (b : Body) : b.originInertia = parallelAxis b.I b.m b.r := by
  rw [parallelAxis_eq]; rfl

/-- **C21.** A rider in the symmetry plane: the combined frame has the summed mass, the
summed first moments and the summed inertia tensor about the origin. -/
theorem C21_combine_conserves (bike rider : Part) (hb : bike.y = 0) (hr : rider.y = 0)
    (hm : bike.m + rider.m ≠ 0) :
    (combineParts bike rider).body.m = bike.body.m + rider.body.m ∧
    (combineParts bike rider).body.firstMoment = bike.body.firstMoment + rider.body.firstMoment ∧
    (combineParts bike rider).body.originInertia =
      bike.body.originInertia + rider.body.originInertia := by
  have hm' : rider.m + bike.m ≠ 0 := by rwa [add_comm] at hm
  have hx : (combineParts bike rider).m * (combineParts bike rider).x = rider.m * rider.x + bike.m * bike.x := by
    simp [combineParts, totalCom]; field_simp
  have hz : (combineParts bike rider).m * (combineParts bike rider).z = rider.m * rider.z + bike.m * bike.z := by
    simp [combineParts, totalCom]; field_simp
  have hM : (combineParts bike rider).m = rider.m + bike.m := by simp [combineParts, totalCom]
  refine ⟨?_, ?_, ?_⟩
  · simp only [Part.body]; rw [hM, add_comm]
  · ext i
    fin_cases i
    · simp only [Part.body, Body.firstMoment]; simp [hx, add_comm]
    · simp [Part.body, Body.firstMoment, hb, hr, combineParts]
    · simp only [Part.body, Body.firstMoment]; simp [hz, add_comm]
  · rw [originInertia_eq, originInertia_eq, originInertia_eq]
    have hcomp := C20_parallel_axis_composite bike.tensor rider.tensor bike.m rider.m
      ![bike.x, bike.y, bike.z] ![rider.x, rider.y, rider.z]
      ![(combineParts bike rider).x, 0, (combineParts bike rider).z] (by
        ext i
        fin_cases i
        · simp; rw [← hM.trans (add_comm _ _), hx, add_comm]
        · simp [hb, hr]
        · simp; rw [← hM.trans (add_comm _ _), hz, add_comm])
    simp only [Part.body]
    rw [← hcomp, ← hM.trans (add_comm _ _)]
    have hy : (combineParts bike rider).y = 0 := rfl
    rw [hy]
    congr 1
    have hcy : (totalCom [(rider.m, ![rider.x, 0, rider.z]), (bike.m, ![bike.x, 0, bike.z])]).2 1 = 0 := by
      simp [totalCom]
    ext i j
    fin_cases i <;> fin_cases j <;>
      simp [Part.tensor, parallelAxis, combineParts, hb, hr, hcy] <;> ring

/-- **C21 is false** off the symmetry plane: the lateral first moment is lost, and even
the in-plane inertia `Ixx` about the origin is wrong. -/
theorem C21_lateral_rider_not_conserved :
    ∃ bike rider : Part, bike.y = 0 ∧ bike.m + rider.m ≠ 0 ∧
      (combineParts bike rider).body.firstMoment ≠ bike.body.firstMoment + rider.body.firstMoment ∧
      (combineParts bike rider).body.originInertia 0 0 ≠
        (bike.body.originInertia + rider.body.originInertia) 0 0 := by
  refine ⟨⟨1, 0, 0, 0, 0, 0, 0, 0⟩, ⟨1, 0, 2, 0, 0, 0, 0, 0⟩, rfl, by norm_num, ?_, ?_⟩
  · intro h
    have := congrFun h 1
    simp [combineParts, totalCom, Part.body, Body.firstMoment] at this
  · rw [Matrix.add_apply, originInertia_eq, originInertia_eq, originInertia_eq]
    simp [combineParts, totalCom, Part.body, Part.tensor, parallelAxis]
    norm_num

/-- **C21 (partial).** For any rider the mass and the in-plane first moments are right. -/
theorem C21_combine_mass_and_plane_partial (bike rider : Part) (hm : bike.m + rider.m ≠ 0) :
    (combineParts bike rider).m = bike.m + rider.m ∧
    (combineParts bike rider).body.firstMoment 0 = (bike.body.firstMoment + rider.body.firstMoment) 0 ∧
    (combineParts bike rider).body.firstMoment 2 = (bike.body.firstMoment + rider.body.firstMoment) 2 := by
  have hm' : rider.m + bike.m ≠ 0 := by rwa [add_comm] at hm
  refine ⟨by simp [combineParts, totalCom, add_comm], ?_, ?_⟩ <;>
    simp [combineParts, totalCom, Part.body, Body.firstMoment] <;> field_simp <;> ring

/-- **C21** on dictionaries: a successful call replaces the eight entries of frame B by
those of the combined frame (so the conservation theorem applies) and leaves every other
entry of the bicycle's dictionary alone; it succeeds iff the entries it needs exist. -/
theorem C21_combine_dictionary (bp rp : Dict ℝ) :
    ((∃ out, combineBikeRider bp rp = .ok out) ↔
      (∀ k ∈ ["mB", "xB", "yB", "zB", "IBxx", "IBxz", "IByy", "IBzz"], Dict.has rp k = true) ∧
      (∀ k ∈ ["mB", "xB", "zB", "IBxx", "IBxz", "IByy", "IBzz"], Dict.has bp k = true)) ∧
    ∀ out, combineBikeRider bp rp = .ok out →
      partB out = combineParts (partB bp) (partB rp) ∧
      ∀ k, k ∉ ["mB", "xB", "yB", "zB", "IBxx", "IBxz", "IByy", "IBzz"] →
        Dict.find? out k = Dict.find? bp k := by
  constructor
  · unfold combineBikeRider
    rw [← Dict.require_ok_iff, ← Dict.require_ok_iff]
    cases Dict.require rp ["mB", "xB", "yB", "zB", "IBxx", "IBxz", "IByy", "IBzz"] with
    | error e => simp
    | ok u =>
      cases Dict.require bp ["mB", "xB", "zB", "IBxx", "IBxz", "IByy", "IBzz"] with
      | error e => simp
      | ok u => simp
  · intro out h
    unfold combineBikeRider at h
    split at h
    · simp at h
    · split at h
      · simp at h
      · simp only [Except.ok.injEq] at h
        subst h
        constructor
        · simp [partB, Dict.getD_set]
        · intro k hk
          simp only [List.mem_cons, List.not_mem_nil, or_false, not_or] at hk
          obtain ⟨h1, h2, h3, h4, h5, h6, h7, h8⟩ := hk
          rw [Dict.find?_set_of_ne _ _ (Ne.symm h8), Dict.find?_set_of_ne _ _ (Ne.symm h7),
            Dict.find?_set_of_ne _ _ (Ne.symm h6), Dict.find?_set_of_ne _ _ (Ne.symm h5),
            Dict.find?_set_of_ne _ _ (Ne.symm h1), Dict.find?_set_of_ne _ _ (Ne.symm h3),
            Dict.find?_set_of_ne _ _ (Ne.symm h4), Dict.find?_set_of_ne _ _ (Ne.symm h2)]

/-- Frame B of a benchmark bicycle replaced by a part. -/
def Bench.withFrame (p : Bench) (q : Part) : Bench :=
  { p with mB := q.m, xB := q.x, zB := q.z, IBxx := q.Ixx, IBxz := q.Ixz, IBzz := q.Izz }

/-- **C21.** The canonical matrices of the bicycle with the combined frame are those of the
five body system bicycle plus rider: the rider's moments are simply added. -/
theorem C21_rider_in_canonical_matrices (p : Bench) (bike rider : Part) (hb : bike.y = 0)
    (hr : rider.y = 0) (hm : bike.m + rider.m ≠ 0) (hA : p.mA ≠ 0)
    (hT : (p.withFrame (combineParts bike rider)).mT ≠ 0) :
    (p.withFrame (combineParts bike rider)).canon =
      canonOfMoments ((p.withFrame bike).momT + rider.body.moments) p.momA p.w p.c p.lam p.SR p.SF := by
  obtain ⟨h1, h2, h3⟩ := C21_combine_conserves bike rider hb hr hm
  have hmom : ((p.withFrame (combineParts bike rider)).bodyB 0).moments =
      ((p.withFrame bike).bodyB 0).moments + rider.body.moments := by
    have e0 : ∀ q : Part, q.y = 0 → ((p.withFrame q).bodyB 0).moments = q.body.moments := by
      intro q hq
      unfold Bench.bodyB Bench.withFrame
      rw [moments_planarBody]
      simp only [Body.moments, originInertia_eq, Part.body, Body.firstMoment]
      ext <;> simp [parallelAxis, Part.tensor, hq]
      · ring
    rw [e0 _ rfl, e0 _ hb]
    ext
    · exact h1
    · exact congrFun h2 0
    · exact congrFun h2 2
    · exact congrFun (congrFun h3 0) 0
    · exact congrFun (congrFun h3 0) 2
    · exact congrFun (congrFun h3 2) 2
  have hA' : (p.withFrame (combineParts bike rider)).mA ≠ 0 := hA
  rw [canon_eq_canonOfMoments _ hA' hT]
  have hT' : (p.withFrame (combineParts bike rider)).momT = (p.withFrame bike).momT + rider.body.moments := by
    unfold Bench.momT
    rw [hmom]
    have : (p.withFrame (combineParts bike rider)).momA = (p.withFrame bike).momA := rfl
    rw [this]
    have hR : (p.withFrame (combineParts bike rider)).bodyR = (p.withFrame bike).bodyR := rfl
    rw [hR]
    ext <;> simp <;> ring
  rw [hT']
  rfl

/-- non-vacuity of C21 -/
example : (⟨85, 1, 0, -1, 9, 2, 11, 3⟩ : Part).m + (⟨20, 1, 0, -1, 1, 0, 1, 1⟩ : Part).m ≠ 0 := by
  norm_num

/-! ## C22 -/

/-- **C22.** `compound_pendulum_inertia` is the only central inertia for which a compound
pendulum has the period `T`. -/
theorem C22_pendulum_inverts_period (m g l T I : ℝ) (hm : 0 < m) (hg : 0 < g) (hl : 0 < l)
    (hT : 0 < T) (hI : 0 ≤ I + m * l ^ 2) :
    I = compoundPendulumInertia m g l T ↔ T = 2 * π * √((I + m * l ^ 2) / (m * g * l)) := by
  have hmgl : 0 < m * g * l := by positivity
  have hpi : (0 : ℝ) < 2 * π := by positivity
  constructor
  · rintro rfl
    have : (compoundPendulumInertia m g l T + m * l ^ 2) / (m * g * l) = (T / (2 * π)) ^ 2 := by
      unfold compoundPendulumInertia; field_simp; ring
    rw [this, Real.sqrt_sq (by positivity)]
    field_simp
  · intro h
    have hs : √((I + m * l ^ 2) / (m * g * l)) = T / (2 * π) := by rw [h]; field_simp
    have h2 : (I + m * l ^ 2) / (m * g * l) = (T / (2 * π)) ^ 2 := by
      rw [← hs, Real.sq_sqrt (by positivity)]
    rw [div_eq_iff hmgl.ne'] at h2
    unfold compoundPendulumInertia
    have h3 : (T / 2 / π) = T / (2 * π) := by field_simp
    rw [h3]
    linarith

/-- **C22.** The result is non-negative iff the period is at least that of a point mass. -/
theorem C22_nonneg_iff (m g l T : ℝ) (hm : 0 < m) (hg : 0 < g) (hl : 0 < l) (hT : 0 < T) :
    0 ≤ compoundPendulumInertia m g l T ↔ 2 * π * √(l / g) ≤ T := by
  have hpi : (0 : ℝ) < 2 * π := by positivity
  have e : compoundPendulumInertia m g l T = m * g * l * ((T / (2 * π)) ^ 2 - l / g) := by
    unfold compoundPendulumInertia; field_simp
  rw [e, mul_nonneg_iff_of_pos_left (by positivity), sub_nonneg,
    ← Real.sqrt_le_left (by positivity), ← mul_comm (√(l / g)), ← le_div_iff₀ hpi]

example : (0 : ℝ) ≤ compoundPendulumInertia 1 1 1 (2 * π * 2) :=
  (C22_nonneg_iff 1 1 1 _ one_pos one_pos one_pos (by positivity)).2 (by
    have := Real.pi_pos
    norm_num
    linarith)

/-! ## C23 -/

/-- **C23.** The calibration rod's own inertia is returned for the calibration period. -/
theorem C23_calibration_roundtrip (I T : ℝ) (hT : T ≠ 0) :
    torInertia (torsionalPendulumStiffness I T) T = I := by
  unfold torInertia torsionalPendulumStiffness
  have := Real.pi_pos
  field_simp

/-- **C23.** With a fixed wire, inertias compare like squares of the periods. -/
theorem C23_inertia_ratio (I T T' : ℝ) (hT : T ≠ 0) :
    torInertia (torsionalPendulumStiffness I T) T' = I * (T' / T) ^ 2 := by
  unfold torInertia torsionalPendulumStiffness
  have := Real.pi_pos
  field_simp

/-- **C23.** `T = 2π sqrt(I/k)` for the returned inertia. -/
theorem C23_period_law (k T : ℝ) (hk : 0 < k) (hT : 0 < T) :
    T = 2 * π * √(torInertia k T / k) := by
  have := Real.pi_pos
  have e : torInertia k T / k = (T / (2 * π)) ^ 2 := by unfold torInertia; field_simp; ring
  rw [e, Real.sqrt_sq (by positivity)]
  field_simp

/-! ## C25 -/

theorem rotY_mul (a b : ℝ) : rotY a * rotY b = rotY (a + b) := by
  ext i j
  fin_cases i <;> fin_cases j <;>
    simp [rotY, Matrix.mul_apply, Fin.sum_univ_three, cos_add, sin_add] <;> ring

theorem rotY_zero : rotY 0 = 1 := by
  ext i j
  fin_cases i <;> fin_cases j <;> simp [rotY]

theorem rotY_transpose (a : ℝ) : (rotY a)ᵀ = rotY (-a) := by
  ext i j
  fin_cases i <;> fin_cases j <;> simp [rotY]

/-- **C25.** The rotation is by an orthogonal matrix of determinant 1 ... -/
theorem C25_rotation_matrix (a : ℝ) : rotY a * (rotY a)ᵀ = 1 ∧ (rotY a).det = 1 := by
  refine ⟨by rw [rotY_transpose, rotY_mul, add_neg_cancel, rotY_zero], ?_⟩
  have := sin_sq_add_cos_sq a
  simp [rotY, det_fin_three]; nlinarith

/-- **C25.** ... so symmetry, trace, determinant and the yy entry survive ... -/
theorem C25_rotation_invariants (I : Mat3) (a : ℝ) :
    (rotateInertiaTensor I a).trace = I.trace ∧ (rotateInertiaTensor I a).det = I.det ∧
    (rotateInertiaTensor I a) 1 1 = I 1 1 ∧
    (Iᵀ = I → (rotateInertiaTensor I a)ᵀ = rotateInertiaTensor I a) := by
  obtain ⟨ho, hd⟩ := C25_rotation_matrix a
  have ho' : (rotY a)ᵀ * rotY a = 1 := mul_eq_one_comm.1 ho
  refine ⟨?_, ?_, ?_, ?_⟩
  · unfold rotateInertiaTensor
    rw [Matrix.trace_mul_comm, Matrix.mul_assoc, ho', Matrix.mul_one]
  · unfold rotateInertiaTensor
    rw [det_mul, det_mul, det_transpose, hd]; ring
  · simp [rotateInertiaTensor, rotY, Matrix.mul_apply, Fin.sum_univ_three]
  · intro h
    unfold rotateInertiaTensor
    rw [transpose_mul, transpose_mul, transpose_transpose, h, Matrix.mul_assoc]

/-- **C25.** ... angle 0 is the identity and angles add up, so rotating back restores. -/
theorem C25_rotations_compose (I : Mat3) (a b : ℝ) :
    rotateInertiaTensor I 0 = I ∧
    rotateInertiaTensor (rotateInertiaTensor I a) b = rotateInertiaTensor I (a + b) ∧
    rotateInertiaTensor (rotateInertiaTensor I a) (-a) = I := by
  have hcomp : ∀ a b, rotateInertiaTensor (rotateInertiaTensor I a) b = rotateInertiaTensor I (a + b) := by
    intro a b
    unfold rotateInertiaTensor
    rw [add_comm a b, ← rotY_mul b a, transpose_mul]
    simp only [Matrix.mul_assoc]
  have hz : rotateInertiaTensor I 0 = I := by
    unfold rotateInertiaTensor; rw [rotY_zero]; simp
  exact ⟨hz, hcomp a b, by rw [hcomp, add_neg_cancel, hz]⟩

/-- **C25.** The moments of inertia are the ones about the rotated axes: for every
direction `n`, `n·I'n` is the original moment about the direction `Cᵀ n`. -/
theorem C25_rotation_axis_moment (I : Mat3) (a : ℝ) (n : Vec3) :
    axisMoment (rotateInertiaTensor I a) n = axisMoment I ((rotY a)ᵀ *ᵥ n) := by
  unfold axisMoment rotateInertiaTensor
  simp only [← Matrix.mulVec_mulVec]
  rw [Matrix.dotProduct_mulVec n (rotY a), ← Matrix.mulVec_transpose]

/-! ## C24 -/

/-- What is measured: the moment of inertia about the x axis of the tensor rotated by
`beta`. -/
noncomputable def measuredInertia (Ixx Ixz Iyy Izz beta : ℝ) : ℝ :=
  rotateInertiaTensor !![Ixx, 0, Ixz; 0, Iyy, 0; Ixz, 0, Izz] beta 0 0

theorem measured_eq {n : ℕ} (Ixx Ixz Iyy Izz : ℝ) (beta : Fin n → ℝ) :
    (fun i => measuredInertia Ixx Ixz Iyy Izz (beta i)) = betaMat beta *ᵥ ![Ixx, Ixz, Izz] := by
  ext i
  simp only [measuredInertia, rotateInertiaTensor, rotY, betaMat, Matrix.mul_apply, Fin.sum_univ_three,
    Matrix.mulVec, dotProduct, Matrix.transpose_apply]
  simp
  ring

/-- Three orientations that differ modulo π determine the planar tensor. -/
theorem betaMat_injective {n : ℕ} (beta : Fin n → ℝ) (i j k : Fin n)
    (hij : sin (beta i - beta j) ≠ 0) (hik : sin (beta i - beta k) ≠ 0)
    (hjk : sin (beta j - beta k) ≠ 0) (x : Vec3) (hx : betaMat beta *ᵥ x = 0) : x = 0 := by
  let N : Mat3 := fun r => betaMat beta (![i, j, k] r)
  have hN : N *ᵥ x = 0 := by
    ext r
    have := congrFun hx (![i, j, k] r)
    simpa [N, Matrix.mulVec] using this
  have hdet : N.det = 2 * sin (beta i - beta j) * sin (beta i - beta k) * sin (beta j - beta k) ∨
      N.det = -(2 * sin (beta i - beta j) * sin (beta i - beta k) * sin (beta j - beta k)) := by
    rw [det_fin_three]
    simp only [N, betaMat, sin_sub]
    simp
    left; ring
  have hne : N.det ≠ 0 := by
    rcases hdet with h | h <;> rw [h]
    · simp [hij, hik, hjk]
    · simp [hij, hik, hjk]
  exact Matrix.eq_zero_of_mulVec_eq_zero hne hN

/-- **C24.** From the moments measured at any number of orientations, three of which
differ modulo π, `inertia_components` returns the tensor, provided the matrix inverse used
is a generalised inverse (`A A⁺ A = A`: true of the inverse and of the pseudo-inverse). -/
theorem C24_inertia_components_exact {n : ℕ}
    (matInv : Matrix (Fin n) (Fin 3) ℝ → Matrix (Fin 3) (Fin n) ℝ)
    (hinv : ∀ A, A * matInv A * A = A)
    (Ixx Ixz Iyy Izz : ℝ) (beta : Fin n → ℝ) (i j k : Fin n)
    (hij : sin (beta i - beta j) ≠ 0) (hik : sin (beta i - beta k) ≠ 0)
    (hjk : sin (beta j - beta k) ≠ 0) :
    inertiaComponents matInv (fun i => measuredInertia Ixx Ixz Iyy Izz (beta i)) beta =
      ![Ixx, Ixz, Izz] := by
  unfold inertiaComponents
  rw [measured_eq]
  refine sub_eq_zero.1 (betaMat_injective beta i j k hij hik hjk _ ?_)
  rw [Matrix.mulVec_sub, Matrix.mulVec_mulVec, Matrix.mulVec_mulVec, hinv, sub_self]

/-- Two orientations never suffice: different tensors give the same measurements. -/
theorem C24_two_orientations_not_enough (b1 b2 : ℝ) :
    ∃ x y : Vec3, x ≠ y ∧ betaMat ![b1, b2] *ᵥ x = betaMat ![b1, b2] *ᵥ y := by
  -- the form vanishing in both directions
  refine ⟨![2 * sin b1 * sin b2, sin b1 * cos b2 + sin b2 * cos b1, 2 * cos b1 * cos b2], 0, ?_, ?_⟩
  · intro h
    have h0 : 2 * sin b1 * sin b2 = 0 := by simpa using congrFun h 0
    have h1 : sin b1 * cos b2 + sin b2 * cos b1 = 0 := by simpa using congrFun h 1
    have h2 : 2 * cos b1 * cos b2 = 0 := by simpa using congrFun h 2
    have s1 := sin_sq_add_cos_sq b1
    have s2 := sin_sq_add_cos_sq b2
    have h0' : sin b1 * sin b2 = 0 := by linarith
    have h2' : cos b1 * cos b2 = 0 := by linarith
    have : (1 : ℝ) = 0 := by
      calc (1 : ℝ) = (sin b1 ^ 2 + cos b1 ^ 2) * (sin b2 ^ 2 + cos b2 ^ 2) := by rw [s1, s2]; ring
        _ = (sin b1 * sin b2 - cos b1 * cos b2) ^ 2 + (sin b1 * cos b2 + sin b2 * cos b1) ^ 2 := by ring
        _ = 0 := by rw [h0', h2', h1]; ring
    exact one_ne_zero this
  · ext i
    fin_cases i <;> simp [betaMat, Matrix.mulVec, dotProduct, Fin.sum_univ_three] <;> ring

/-- non-vacuity of C24: a left inverse exists for the orientations 0, π/4, π/2; the exact
inverse of a 3x3 matrix is a generalised inverse whenever the determinant is not 0. -/
example : sin ((![0, π / 4, π / 2] : Fin 3 → ℝ) 0 - (![0, π / 4, π / 2] : Fin 3 → ℝ) 1) ≠ 0 ∧
    sin ((![0, π / 4, π / 2] : Fin 3 → ℝ) 0 - (![0, π / 4, π / 2] : Fin 3 → ℝ) 2) ≠ 0 ∧
    sin ((![0, π / 4, π / 2] : Fin 3 → ℝ) 1 - (![0, π / 4, π / 2] : Fin 3 → ℝ) 2) ≠ 0 := by
  have h4 : sin (π / 4) ≠ 0 := by rw [Real.sin_pi_div_four]; positivity
  refine ⟨?_, ?_, ?_⟩
  · simp
  · simp
  · have : π / 4 - π / 2 = -(π / 4) := by ring
    simp [this]

/-! ## C26 -/

/-- **C26.** If `eig` returned eigenpairs in any order and `argsort` returns a sorting
permutation, then `principal_axes` returns the moments in ascending order, row `i` of the
axes is an eigenvector for moment `i`, and each pair occurs exactly once. -/
theorem C26_principal_axes_sorted (argsort : Vec3 → Fin 3 → Fin 3)
    (hbij : ∀ v : Vec3, Function.Bijective (argsort v))
    (hsort : ∀ v : Vec3, Monotone fun i => v (argsort v i))
    (I : Mat3) (Ip : Vec3) (C : Mat3) (heig : ∀ i, I *ᵥ (fun r => C r i) = Ip i • fun r => C r i) :
    Monotone (principalAxes argsort Ip C).1 ∧
    (∀ i, I *ᵥ ((principalAxes argsort Ip C).2 i) =
      (principalAxes argsort Ip C).1 i • (principalAxes argsort Ip C).2 i) ∧
    ∃ σ : Equiv.Perm (Fin 3), ∀ i, (principalAxes argsort Ip C).1 i = Ip (σ i) ∧
      (principalAxes argsort Ip C).2 i = fun r => C r (σ i) := by
  refine ⟨hsort Ip, ?_, Equiv.ofBijective _ (hbij Ip), ?_⟩
  · intro i
    exact heig (argsort Ip i)
  · intro i
    exact ⟨rfl, rfl⟩

/-- non-vacuity of C26: a sorting permutation exists for every vector -/
example : ∃ argsort : Vec3 → Fin 3 → Fin 3, (∀ v : Vec3, Function.Bijective (argsort v)) ∧
    ∀ v : Vec3, Monotone fun i => v (argsort v i) :=
  ⟨fun v => Tuple.sort v, fun v => (Tuple.sort v).bijective, fun v => Tuple.monotone_sort v⟩

/-! ## C27 -/

/-- **C27.** A tube of mass `m`, `0 ≤ ri < ro`, is a solid rod minus a solid core of the same
density: the moments are the differences of the solid ones (`½ M R²` and
`M (3R² + l²)/12`), where the two masses differ by `m` and are as the squares of the radii. -/
theorem C27_tube_is_rod_minus_core (l m ro ri mo mi : ℝ) (_hr : ri ^ 2 < ro ^ 2)
    (hm : mo - mi = m) (hdens : mo * ri ^ 2 = mi * ro ^ 2) :
    (tubeInertia l m ro ri).1 = mo / 2 * ro ^ 2 - mi / 2 * ri ^ 2 ∧
    (tubeInertia l m ro ri).2.1 = mo / 12 * (3 * ro ^ 2 + l ^ 2) - mi / 12 * (3 * ri ^ 2 + l ^ 2) := by
  subst hm
  constructor
  · simp only [tubeInertia]; linear_combination (1 / 2) * hdens
  · simp only [tubeInertia]; linear_combination (1 / 4) * hdens

/-- **C27.** Physical sanity: symmetric, non-negative, triangle inequalities, monotone in
the radii. -/
theorem C27_tube_physical (l m ro ri ro' ri' : ℝ) (hm : 0 ≤ m) (h1 : 0 ≤ ri) (h2 : ri ≤ ro) (h1' : ri ≤ ri')
    (h2' : ro ≤ ro') :
    (tubeInertia l m ro ri).2.1 = (tubeInertia l m ro ri).2.2 ∧
    0 ≤ (tubeInertia l m ro ri).1 ∧
    (tubeInertia l m ro ri).1 ≤ (tubeInertia l m ro ri).2.1 + (tubeInertia l m ro ri).2.2 ∧
    (tubeInertia l m ro ri).2.1 ≤ (tubeInertia l m ro ri).1 + (tubeInertia l m ro ri).2.2 ∧
    (tubeInertia l m ro ri).1 ≤ (tubeInertia l m ro' ri').1 ∧
    (tubeInertia l m ro ri).2.1 ≤ (tubeInertia l m ro' ri').2.1 := by
  have e1 : ri ^ 2 ≤ ri' ^ 2 := by nlinarith
  have e2 : ro ^ 2 ≤ ro' ^ 2 := by nlinarith
  simp only [tubeInertia]
  refine ⟨trivial, by positivity, ?_, ?_, ?_, ?_⟩
  · nlinarith [mul_nonneg hm (sq_nonneg l)]
  · have : 0 ≤ m / 2 * (ro ^ 2 + ri ^ 2) := by positivity
    linarith
  · apply mul_le_mul_of_nonneg_left _ (by positivity); linarith
  · apply mul_le_mul_of_nonneg_left _ (by positivity); linarith

example : tubeInertia 2 3 1 0 = (3 / 2, 7 / 4, 7 / 4) := by norm_num [tubeInertia]

end BP
