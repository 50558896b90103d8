import Verif.Model.Rider
import Verif.Spec.Rider
import Verif.Props.Inertia

/-!
# Properties of rider.py (C71, C72, C98)
-/

set_option linter.unusedSimpArgs false

namespace BP

open Matrix Real Spec

/-! ## C71 -/

/-- The keys of the measurements `yeadon_vec_to_bicycle_vec` needs. -/
def seatKeys : List String := ["hbb", "lcs", "lsp", "lst", "lamst"]

theorem yeadonVec_run (v : Vec3) (measured benchmark : Dict ℝ)
    (hm : ∀ k ∈ seatKeys, measured.has k = true) (hb : benchmark.has "rR" = true) :
    yeadonVecToBicycleVec v measured benchmark = .ok (yeadonOrigin (Dict.getD measured "hbb" 0)
      (Dict.getD measured "lcs" 0) (Dict.getD benchmark "rR" 0) (Dict.getD measured "lsp" 0)
      (Dict.getD measured "lst" 0) (Dict.getD measured "lamst" 0) + yeadonRot *ᵥ v) := by
  have get_ok : ∀ (d : Dict ℝ) k, d.has k = true → d.get k = .ok (Dict.getD d k 0) := by
    intro d k h
    obtain ⟨x, hx⟩ := (Dict.has_iff_exists d k).1 h
    simp [Dict.get, Dict.getD, hx]
  unfold yeadonVecToBicycleVec
  rw [get_ok _ _ (hm "hbb" (by decide)), get_ok _ _ (hm "lcs" (by decide)),
    get_ok _ _ (hm "lsp" (by decide)), get_ok _ _ (hm "lst" (by decide)),
    get_ok _ _ (hm "lamst" (by decide)), get_ok _ _ hb]
  rfl

/-- **C71.** `yeadon_vec_to_bicycle_vec` returns for every vector iff the six dimensions are
there (otherwise `KeyError`). -/
theorem C71_returns_iff (v : Vec3) (measured benchmark : Dict ℝ) :
    ((∃ c, yeadonVecToBicycleVec v measured benchmark = .ok c) ↔
      (∀ k ∈ ["hbb", "lcs", "lsp", "lst", "lamst"], measured.has k = true) ∧
        benchmark.has "rR" = true) ∧
    ∀ e, yeadonVecToBicycleVec v measured benchmark = .error e → ∃ k, e = .keyError k := by
  have cases_get : ∀ (d : Dict ℝ) k, (d.has k = true ∧ ∃ x, d.get k = .ok x) ∨
      (d.has k = false ∧ d.get k = .error (.keyError k)) := by
    intro d k
    unfold Dict.has Dict.get
    cases d.find? k <;> simp
  unfold yeadonVecToBicycleVec
  rcases cases_get measured "hbb" with ⟨h1, x1, e1⟩ | ⟨h1, e1⟩ <;>
  rcases cases_get measured "lcs" with ⟨h2, x2, e2⟩ | ⟨h2, e2⟩ <;>
  rcases cases_get benchmark "rR" with ⟨h3, x3, e3⟩ | ⟨h3, e3⟩ <;>
  rcases cases_get measured "lsp" with ⟨h4, x4, e4⟩ | ⟨h4, e4⟩ <;>
  rcases cases_get measured "lst" with ⟨h5, x5, e5⟩ | ⟨h5, e5⟩ <;>
  rcases cases_get measured "lamst" with ⟨h6, x6, e6⟩ | ⟨h6, e6⟩ <;>
  simp [e1, e2, e3, e4, e5, e6, h1, h2, h3, h4, h5, h6, Except.bind]

theorem rot_dot (u v : Vec3) : (yeadonRot *ᵥ u) ⬝ᵥ (yeadonRot *ᵥ v) = u ⬝ᵥ v := by
  simp [yeadonRot, Matrix.mulVec, dotProduct, Fin.sum_univ_three]; ring

theorem rot_cross (u v : Vec3) : (yeadonRot *ᵥ u) ⨯₃ (yeadonRot *ᵥ v) = yeadonRot *ᵥ (u ⨯₃ v) := by
  ext i
  fin_cases i <;> simp [yeadonRot, Matrix.mulVec, dotProduct, Fin.sum_univ_three, crossProduct]

/-- **C71.** The map is a rigid motion: for any four vectors the differences of the results
have the dot products of the differences of the arguments (so distances and angles are kept),
and the triple product of any three differences is kept too (so left and right are not
exchanged). -/
theorem C71_rigid (measured benchmark : Dict ℝ) (p q r s p' q' r' s' : Vec3)
    (hp : yeadonVecToBicycleVec p measured benchmark = .ok p')
    (hq : yeadonVecToBicycleVec q measured benchmark = .ok q')
    (hr : yeadonVecToBicycleVec r measured benchmark = .ok r')
    (hs : yeadonVecToBicycleVec s measured benchmark = .ok s') :
    dist3 p' q' = dist3 p q ∧
    (p' - q') ⬝ᵥ (r' - s') = (p - q) ⬝ᵥ (r - s) ∧
    ((p' - s') ⬝ᵥ ((q' - s') ⨯₃ (r' - s')) = (p - s) ⬝ᵥ ((q - s) ⨯₃ (r - s))) := by
  obtain ⟨hm, hb⟩ := (C71_returns_iff p measured benchmark).1.1 ⟨_, hp⟩
  rw [yeadonVec_run _ _ _ hm hb] at hp hq hr hs
  simp only [Except.ok.injEq] at hp hq hr hs
  subst hp hq hr hs
  have hsub : ∀ (o a b : Vec3), (o + yeadonRot *ᵥ a) - (o + yeadonRot *ᵥ b) = yeadonRot *ᵥ (a - b) := by
    intro o a b
    rw [add_sub_add_left_eq_sub, Matrix.mulVec_sub]
  refine ⟨?_, ?_, ?_⟩
  · unfold dist3
    congr 1
    simp [yeadonRot, Matrix.mulVec, dotProduct, Fin.sum_univ_three]; ring
  · rw [hsub, hsub, rot_dot]
  · rw [hsub, hsub, hsub, rot_cross, rot_dot]

/-- **C71.** Yeadon's axes: left, backwards and up in the bicycle's frame (x forward, y right,
z down); Yeadon's origin is at the top of the seat post, that is `lsp + lst` from the bottom
bracket up the seat tube, whose angle to the horizontal is `lamst`; and the bottom bracket is
`hbb` above the ground and `lcs` from the rear hub. -/
theorem C71_seat (measured benchmark : Dict ℝ)
    (hm : ∀ k ∈ ["hbb", "lcs", "lsp", "lst", "lamst"], measured.has k = true)
    (hb : benchmark.has "rR" = true) :
    ∃ o bb : Vec3, yeadonVecToBicycleVec 0 measured benchmark = .ok o ∧
      yeadonVecToBicycleVec ![1, 0, 0] measured benchmark = .ok (o + ![0, -1, 0]) ∧
      yeadonVecToBicycleVec ![0, 1, 0] measured benchmark = .ok (o + ![-1, 0, 0]) ∧
      yeadonVecToBicycleVec ![0, 0, 1] measured benchmark = .ok (o + ![0, 0, -1]) ∧
      bb 1 = 0 ∧ bb 2 = -Dict.getD measured "hbb" 0 ∧ 0 ≤ bb 0 ∧
      o - bb = (Dict.getD measured "lsp" 0 + Dict.getD measured "lst" 0) •
        ![-cos (Dict.getD measured "lamst" 0), 0, -sin (Dict.getD measured "lamst" 0)] ∧
      (|Dict.getD benchmark "rR" 0 - Dict.getD measured "hbb" 0| ≤ Dict.getD measured "lcs" 0 →
        dist3 bb ![0, 0, -Dict.getD benchmark "rR" 0] = Dict.getD measured "lcs" 0) := by
  refine ⟨_, ![√(Dict.getD measured "lcs" 0 ^ 2 -
    (-Dict.getD measured "hbb" 0 + Dict.getD benchmark "rR" 0) ^ 2), 0, -Dict.getD measured "hbb" 0],
    yeadonVec_run _ _ _ hm hb, ?_, ?_, ?_, by simp, by simp, ?_, ?_, ?_⟩
  · rw [yeadonVec_run _ _ _ hm hb]
    congr 1
    ext i; fin_cases i <;> simp [yeadonRot, Matrix.mulVec, dotProduct, Fin.sum_univ_three]
  · rw [yeadonVec_run _ _ _ hm hb]
    congr 1
    ext i; fin_cases i <;> simp [yeadonRot, Matrix.mulVec, dotProduct, Fin.sum_univ_three]
  · rw [yeadonVec_run _ _ _ hm hb]
    congr 1
    ext i; fin_cases i <;> simp [yeadonRot, Matrix.mulVec, dotProduct, Fin.sum_univ_three]
  · simp
  · ext i; fin_cases i <;> simp [yeadonOrigin] <;> ring
  · intro hle
    have h0 : 0 ≤ Dict.getD measured "lcs" 0 := (abs_nonneg _).trans hle
    have h1 : (-Dict.getD measured "hbb" 0 + Dict.getD benchmark "rR" 0) ^ 2 ≤ Dict.getD measured "lcs" 0 ^ 2 := by
      rw [neg_add_eq_sub]
      exact sq_le_sq' (by linarith [neg_abs_le (Dict.getD benchmark "rR" 0 - Dict.getD measured "hbb" 0)])
        (by linarith [le_abs_self (Dict.getD benchmark "rR" 0 - Dict.getD measured "hbb" 0)])
    unfold dist3
    have h2 : (√(Dict.getD measured "lcs" 0 ^ 2 -
        (-Dict.getD measured "hbb" 0 + Dict.getD benchmark "rR" 0) ^ 2)) ^ 2 =
        Dict.getD measured "lcs" 0 ^ 2 -
        (-Dict.getD measured "hbb" 0 + Dict.getD benchmark "rR" 0) ^ 2 := Real.sq_sqrt (by linarith)
    have h3 : ∀ x : Vec3, x = ![√(Dict.getD measured "lcs" 0 ^ 2 -
        (-Dict.getD measured "hbb" 0 + Dict.getD benchmark "rR" 0) ^ 2), 0, -Dict.getD measured "hbb" 0] →
        (x 0 - 0) ^ 2 + (x 1 - 0) ^ 2 + (x 2 - -Dict.getD benchmark "rR" 0) ^ 2 =
          Dict.getD measured "lcs" 0 ^ 2 := by
      rintro x rfl
      simp only [Matrix.cons_val_zero, Matrix.cons_val_one, Matrix.cons_val, sub_zero]
      rw [h2]; ring
    have h4 := h3 _ rfl
    simp only [Matrix.cons_val_zero, Matrix.cons_val_one, Matrix.cons_val] at h4 ⊢
    rw [h4, Real.sqrt_sq h0]

/-- a bicycle with these dimensions -/
example : (∀ k ∈ ["hbb", "lcs", "lsp", "lst", "lamst"],
      Dict.has ([("hbb", 0.3), ("lcs", 0.4), ("lsp", 0.2), ("lst", 0.5), ("lamst", 1.2)] : Dict ℝ) k = true) ∧
    Dict.has ([("rR", 0.35)] : Dict ℝ) "rR" = true ∧ |(0.35 : ℝ) - 0.3| ≤ 0.4 := by
  refine ⟨by simp [Dict.has, Dict.find?], by simp [Dict.has, Dict.find?], by norm_num [abs_le]⟩

/-! ## C72 -/

/-- The bicycle's frame, without dictionaries. -/
noncomputable def SeatData.toBike (d : SeatData) (v : Vec3) : Vec3 :=
  yeadonOrigin d.hbb d.lcs d.rR d.lsp d.lst d.lamst + yeadonRot *ᵥ v

/-- The conditions for a rider on the bicycle, in the bicycle's frame: seen from the side the
feet are at the bottom bracket; the left hand is half the handlebar width to the left, `LhbR`
from the rear hub and `LhbF` from the front hub; the elbow axis is horizontal. -/
structure Spec.Seated (rR rF w hbb lcs whb LhbR LhbF : ℝ) (foot hand : Fin 3 → ℝ)
    (elbow : Fin 3 → ℝ) : Prop where
  foot_x : foot 0 = √(lcs ^ 2 - (rR - hbb) ^ 2)
  foot_z : foot 2 = -hbb
  hand_y : hand 1 = -(whb / 2)
  rear : dist3 hand ![0, 0, -rR] = LhbR
  front : dist3 hand ![w, 0, -rF] = LhbF
  level : elbow 2 = 0

/-- The foot of the solution in the bicycle's frame. -/
noncomputable def SeatData.foot (d : SeatData) (x : SeatUnknowns) : Vec3 :=
  d.toBike (footPoint d.somersault x.PJ1extension x.J1J2flexion d.Lj3L (d.Lj5L + d.Lj6L - d.Lj3L))

/-- The left hand of the solution in the bicycle's frame. -/
noncomputable def SeatData.hand (d : SeatData) (x : SeatUnknowns) : Vec3 :=
  d.toBike (handPoint d.somersault d.Ls4L (d.Ls4w / 2) x.CA1extension x.CA1adduction x.CA1rotation
    x.A1A2extension d.La2L (d.La4L + d.La5L - d.La2L))

theorem rotX_mulVec (a : ℝ) (v : Vec3) :
    rotX a *ᵥ v = ![v 0, cos a * v 1 - sin a * v 2, sin a * v 1 + cos a * v 2] := by
  ext i; fin_cases i <;> simp [rotX, Matrix.mulVec, dotProduct, Fin.sum_univ_three]; ring

theorem rotY_mulVec (a : ℝ) (v : Vec3) :
    Spec.rotY a *ᵥ v = ![cos a * v 0 + sin a * v 2, v 1, -sin a * v 0 + cos a * v 2] := by
  ext i; fin_cases i <;> simp [Spec.rotY, Matrix.mulVec, dotProduct, Fin.sum_univ_three]

theorem rotZ_mulVec (a : ℝ) (v : Vec3) :
    rotZ a *ᵥ v = ![cos a * v 0 - sin a * v 1, sin a * v 0 + cos a * v 1, v 2] := by
  ext i; fin_cases i <;> simp [rotZ, Matrix.mulVec, dotProduct, Fin.sum_univ_three]; ring

theorem yeadonRot_mulVec (v : Vec3) : yeadonRot *ᵥ v = ![-v 1, -v 0, -v 2] := by
  ext i; fin_cases i <;> simp [yeadonRot, Matrix.mulVec, dotProduct, Fin.sum_univ_three]

theorem foot_zero (d : SeatData) (x : SeatUnknowns) :
    d.foot x 0 = √(d.lcs ^ 2 - (d.rR - d.hbb) ^ 2) + seatResidual d x 0 := by
  simp only [SeatData.foot, SeatData.toBike, footPoint, hanging, ← Matrix.mulVec_mulVec,
    rotX_mulVec, rotY_mulVec, rotZ_mulVec, yeadonRot_mulVec, yeadonOrigin, seatResidual, Pi.add_apply,
    Matrix.cons_val_zero, Matrix.cons_val_one, Matrix.cons_val]
  ring_nf

theorem foot_two (d : SeatData) (x : SeatUnknowns) :
    d.foot x 2 = -d.hbb + seatResidual d x 1 := by
  simp only [SeatData.foot, SeatData.toBike, footPoint, hanging, ← Matrix.mulVec_mulVec,
    rotX_mulVec, rotY_mulVec, rotZ_mulVec, yeadonRot_mulVec, yeadonOrigin, seatResidual, Pi.add_apply,
    Matrix.cons_val_zero, Matrix.cons_val_one, Matrix.cons_val]
  ring_nf

theorem hand_zero (d : SeatData) (x : SeatUnknowns) :
    d.hand x 0 = -x.beta_y - seatResidual d x 7 := by
  simp only [SeatData.hand, SeatData.toBike, handPoint, armFrame, hanging, ← Matrix.mulVec_mulVec,
    rotX_mulVec, rotY_mulVec, rotZ_mulVec, yeadonRot_mulVec, yeadonOrigin, seatResidual, Pi.add_apply,
    Matrix.cons_val_zero, Matrix.cons_val_one, Matrix.cons_val]
  ring_nf

theorem hand_one (d : SeatData) (x : SeatUnknowns) :
    d.hand x 1 = -(d.whb / 2) - seatResidual d x 6 := by
  simp only [SeatData.hand, SeatData.toBike, handPoint, armFrame, hanging, ← Matrix.mulVec_mulVec,
    rotX_mulVec, rotY_mulVec, rotZ_mulVec, yeadonRot_mulVec, yeadonOrigin, seatResidual, Pi.add_apply,
    Matrix.cons_val_zero, Matrix.cons_val_one, Matrix.cons_val]
  ring_nf

theorem hand_two (d : SeatData) (x : SeatUnknowns) :
    d.hand x 2 = -x.beta_z - d.rR - seatResidual d x 8 := by
  simp only [SeatData.hand, SeatData.toBike, handPoint, armFrame, hanging, ← Matrix.mulVec_mulVec,
    rotX_mulVec, rotY_mulVec, rotZ_mulVec, yeadonRot_mulVec, yeadonOrigin, seatResidual, Pi.add_apply,
    Matrix.cons_val_zero, Matrix.cons_val_one, Matrix.cons_val]
  ring_nf

theorem elbow_two (d : SeatData) (x : SeatUnknowns) :
    elbowAxis d.somersault x.CA1extension x.CA1adduction x.CA1rotation 2 = seatResidual d x 9 := by
  simp only [elbowAxis, armFrame, ← Matrix.mulVec_mulVec, rotX_mulVec, rotY_mulVec, rotZ_mulVec,
    seatResidual, Matrix.cons_val_zero, Matrix.cons_val_one, Matrix.cons_val]
  ring_nf

/-- **C72.** The residual that is passed to `fsolve` is right: six joint angles can be
completed to a zero of it exactly if the rider sits on the bicycle: feet at the bottom bracket
(seen from the side), left hand at the handlebar, elbow axis horizontal. -/
theorem C72_residual_iff (d : SeatData) (x : SeatUnknowns) :
    (∃ ay az b_y bz : ℝ, ∀ i,
      seatResidual d { x with alpha_y := ay, alpha_z := az, beta_y := b_y, beta_z := bz } i = 0) ↔
    Seated d.rR d.rF d.w d.hbb d.lcs d.whb d.LhbR d.LhbF (d.foot x) (d.hand x)
      (elbowAxis d.somersault x.CA1extension x.CA1adduction x.CA1rotation) := by
  constructor
  · rintro ⟨ay, az, b_y, bz, h⟩
    set y : SeatUnknowns := { x with alpha_y := ay, alpha_z := az, beta_y := b_y, beta_z := bz } with hy
    have hf : d.foot x = d.foot y := rfl
    have hh : d.hand x = d.hand y := rfl
    have h0 := hand_zero d y
    have h1 := hand_one d y
    have h2 := hand_two d y
    rw [h 7] at h0; rw [h 6] at h1; rw [h 8] at h2
    have e2 := h 2
    have e3 := h 3
    have e4 := h 4
    have e5 := h 5
    simp only [seatResidual, Matrix.cons_val] at e2 e3 e4 e5
    simp only [hy] at h0 h1 h2 e2 e3 e4 e5
    refine ⟨?_, ?_, ?_, ?_, ?_, ?_⟩
    · rw [hf, foot_zero, h 0]; ring
    · rw [hf, foot_two, h 1]; ring
    · rw [hh, h1]; ring
    · rw [hh]
      unfold dist3
      rw [h0, h1, h2]
      simp only [Matrix.cons_val_zero, Matrix.cons_val_one, Matrix.cons_val]
      have : (-b_y - 0 - 0) ^ 2 + (-(d.whb / 2) - 0 - 0) ^ 2 + (-bz - d.rR - 0 - -d.rR) ^ 2 =
          b_y ^ 2 + bz ^ 2 + 0.25 * d.whb ^ 2 := by ring
      rw [this]; linarith
    · rw [hh]
      unfold dist3
      rw [h0, h1, h2]
      simp only [Matrix.cons_val_zero, Matrix.cons_val_one, Matrix.cons_val]
      have : (-b_y - 0 - d.w) ^ 2 + (-(d.whb / 2) - 0 - 0) ^ 2 + (-bz - d.rR - 0 - -d.rF) ^ 2 =
          ay ^ 2 + az ^ 2 + 0.25 * d.whb ^ 2 := by
        have : ay = b_y + d.w := by linarith
        have : az = bz - d.rF + d.rR := by linarith
        subst ay az; ring
      rw [this]; linarith
    · have := elbow_two d y
      rw [h 9] at this
      exact this
  · intro hs
    have hx0 := hand_zero d { x with alpha_y := -d.hand x 0 + d.w, alpha_z := -d.hand x 2 - d.rF, beta_y := -d.hand x 0, beta_z := -d.hand x 2 - d.rR }
    have hx2 := hand_two d { x with alpha_y := -d.hand x 0 + d.w, alpha_z := -d.hand x 2 - d.rF, beta_y := -d.hand x 0, beta_z := -d.hand x 2 - d.rR }
    have hx1 := hand_one d { x with alpha_y := -d.hand x 0 + d.w, alpha_z := -d.hand x 2 - d.rF, beta_y := -d.hand x 0, beta_z := -d.hand x 2 - d.rR }
    have hf0 := foot_zero d { x with alpha_y := -d.hand x 0 + d.w, alpha_z := -d.hand x 2 - d.rF, beta_y := -d.hand x 0, beta_z := -d.hand x 2 - d.rR }
    have hf2 := foot_two d { x with alpha_y := -d.hand x 0 + d.w, alpha_z := -d.hand x 2 - d.rF, beta_y := -d.hand x 0, beta_z := -d.hand x 2 - d.rR }
    have he2 := elbow_two d { x with alpha_y := -d.hand x 0 + d.w, alpha_z := -d.hand x 2 - d.rF, beta_y := -d.hand x 0, beta_z := -d.hand x 2 - d.rR }
    refine ⟨-d.hand x 0 + d.w, -d.hand x 2 - d.rF, -d.hand x 0, -d.hand x 2 - d.rR, ?_⟩
    set y : SeatUnknowns := { x with alpha_y := -d.hand x 0 + d.w, alpha_z := -d.hand x 2 - d.rF, beta_y := -d.hand x 0, beta_z := -d.hand x 2 - d.rR } with hy
    have hf : d.foot y = d.foot x := rfl
    have hh : d.hand y = d.hand x := rfl
    rw [hf] at hf0 hf2
    rw [hh] at hx0 hx1 hx2
    have he : elbowAxis d.somersault y.CA1extension y.CA1adduction y.CA1rotation =
      elbowAxis d.somersault x.CA1extension x.CA1adduction x.CA1rotation := rfl
    rw [he, hs.level] at he2
    have hby : y.beta_y = -d.hand x 0 := rfl
    have hbz : y.beta_z = -d.hand x 2 - d.rR := rfl
    have r3 : seatResidual d y 3 = -d.LhbR + √(y.beta_y ^ 2 + y.beta_z ^ 2 + 0.25 * d.whb ^ 2) := rfl
    have r2 : seatResidual d y 2 = -d.LhbF + √(y.alpha_y ^ 2 + y.alpha_z ^ 2 + 0.25 * d.whb ^ 2) := rfl
    have r4 : seatResidual d y 4 = y.alpha_y - y.beta_y - d.w := rfl
    have r5 : seatResidual d y 5 = y.alpha_z - y.beta_z + d.rF - d.rR := rfl
    intro i
    fin_cases i
    · show seatResidual d y 0 = 0
      linarith [hs.foot_x]
    · show seatResidual d y 1 = 0
      linarith [hs.foot_z]
    · show seatResidual d y 2 = 0
      have h := hs.front
      unfold dist3 at h
      simp only [Matrix.cons_val_zero, Matrix.cons_val_one, Matrix.cons_val] at h
      rw [r2, ← h]
      have : y.alpha_y ^ 2 + y.alpha_z ^ 2 + 0.25 * d.whb ^ 2 =
          (d.hand x 0 - d.w) ^ 2 + (d.hand x 1 - 0) ^ 2 + (d.hand x 2 - -d.rF) ^ 2 := by
        rw [hs.hand_y]; simp only [hy]; ring
      rw [this]; ring
    · show seatResidual d y 3 = 0
      have h := hs.rear
      unfold dist3 at h
      simp only [Matrix.cons_val_zero, Matrix.cons_val_one, Matrix.cons_val] at h
      rw [r3, ← h]
      have : y.beta_y ^ 2 + y.beta_z ^ 2 + 0.25 * d.whb ^ 2 =
          (d.hand x 0 - 0) ^ 2 + (d.hand x 1 - 0) ^ 2 + (d.hand x 2 - -d.rR) ^ 2 := by
        rw [hs.hand_y]; simp only [hy]; ring
      rw [this]; ring
    · show seatResidual d y 4 = 0
      rw [r4]; simp only [hy]; ring
    · show seatResidual d y 5 = 0
      rw [r5]; simp only [hy]; ring
    · show seatResidual d y 6 = 0
      linarith [hs.hand_y]
    · show seatResidual d y 7 = 0
      linarith
    · show seatResidual d y 8 = 0
      linarith
    · show seatResidual d y 9 = 0
      exact he2.symm

/-- The mirrored arm: with opposite adduction and rotation the other hand is at the mirrored
place. -/
theorem hand_mirrored (pelvis torso half ext add rot elbow upper fore : ℝ) :
    handPoint pelvis torso (-half) ext (-add) (-rot) elbow upper fore =
      mirror (handPoint pelvis torso half ext add rot elbow upper fore) := by
  ext i
  fin_cases i <;>
    simp [handPoint, armFrame, hanging, mirror, ← Matrix.mulVec_mulVec, rotX_mulVec, rotY_mulVec,
      rotZ_mulVec] <;> ring

/-- **C72.** The configuration that is set: the left limbs get the solution, the right ones its
mirror image, the somersault angle stays, every other entry is as it was. -/
theorem C72_configuration (cfg : Dict ℝ) (som : ℝ) (s : SeatUnknowns) :
    let c := seatConfiguration cfg som s
    c.find? "somersault" = some som ∧
    c.find? "PJ1extension" = some s.PJ1extension ∧ c.find? "PK1extension" = some s.PJ1extension ∧
    c.find? "J1J2flexion" = some s.J1J2flexion ∧ c.find? "K1K2flexion" = some s.J1J2flexion ∧
    c.find? "CA1extension" = some s.CA1extension ∧ c.find? "CB1extension" = some s.CA1extension ∧
    c.find? "CA1adduction" = some s.CA1adduction ∧ c.find? "CB1abduction" = some (-s.CA1adduction) ∧
    c.find? "CA1rotation" = some s.CA1rotation ∧ c.find? "CB1rotation" = some (-s.CA1rotation) ∧
    c.find? "A1A2extension" = some s.A1A2extension ∧ c.find? "B1B2extension" = some s.A1A2extension ∧
    ∀ k, k ∉ ["somersault", "PJ1extension", "PK1extension", "J1J2flexion", "K1K2flexion",
      "CA1extension", "CB1extension", "CA1adduction", "CB1abduction", "CA1rotation", "CB1rotation",
      "A1A2extension", "B1B2extension"] → c.find? k = cfg.find? k := by
  simp only [seatConfiguration, Dict.getD, Dict.find?_set]
  refine ⟨?_, ?_, ?_, ?_, ?_, ?_, ?_, ?_, ?_, ?_, ?_, ?_, ?_, fun k hk => ?_⟩
  iterate 13 simp [String.reduceEq]
  simp only [List.mem_cons, List.not_mem_nil, or_false, not_or] at hk
  simp only [Ne.symm hk.1, Ne.symm hk.2.1, Ne.symm hk.2.2.1, Ne.symm hk.2.2.2.1, Ne.symm hk.2.2.2.2.1,
    Ne.symm hk.2.2.2.2.2.1, Ne.symm hk.2.2.2.2.2.2.1, Ne.symm hk.2.2.2.2.2.2.2.1,
    Ne.symm hk.2.2.2.2.2.2.2.2.1, Ne.symm hk.2.2.2.2.2.2.2.2.2.1,
    Ne.symm hk.2.2.2.2.2.2.2.2.2.2.1, Ne.symm hk.2.2.2.2.2.2.2.2.2.2.2.1,
    Ne.symm hk.2.2.2.2.2.2.2.2.2.2.2.2, if_false]

/-- **C72.** The dimensions in the C72 theorems are those of the dictionaries: eight
measurements of the human, the somersault angle of its configuration, eight measurements of the
bicycle (bottom bracket height, chain stay, seat post and seat tube lengths, seat tube angle,
handlebar width, hand to rear hub, hand to front hub) and the wheel radii and the wheelbase of
its benchmark parameters; they are all needed. -/
theorem C72_dimensions (meas cfg measured benchmark : Dict ℝ) :
    ((∃ d, seatData meas cfg measured benchmark = .ok d) ↔
      (∀ k ∈ ["Lj3L", "Lj5L", "Lj6L", "Ls4L", "Ls4w", "La2L", "La4L", "La5L"], meas.has k = true) ∧
      cfg.has "somersault" = true ∧
      (∀ k ∈ ["hbb", "lcs", "lsp", "lst", "lamst", "whb", "LhbR", "LhbF"], measured.has k = true) ∧
      (∀ k ∈ ["rR", "rF", "w"], benchmark.has k = true)) ∧
    ∀ d, seatData meas cfg measured benchmark = .ok d →
      meas.find? "Lj3L" = some d.Lj3L ∧ meas.find? "Lj5L" = some d.Lj5L ∧
      meas.find? "Lj6L" = some d.Lj6L ∧ meas.find? "Ls4L" = some d.Ls4L ∧
      meas.find? "Ls4w" = some d.Ls4w ∧ meas.find? "La2L" = some d.La2L ∧
      meas.find? "La4L" = some d.La4L ∧ meas.find? "La5L" = some d.La5L ∧
      cfg.find? "somersault" = some d.somersault ∧
      measured.find? "hbb" = some d.hbb ∧ measured.find? "lcs" = some d.lcs ∧
      measured.find? "lsp" = some d.lsp ∧ measured.find? "lst" = some d.lst ∧
      measured.find? "lamst" = some d.lamst ∧ measured.find? "whb" = some d.whb ∧
      measured.find? "LhbR" = some d.LhbR ∧ measured.find? "LhbF" = some d.LhbF ∧
      benchmark.find? "rR" = some d.rR ∧ benchmark.find? "rF" = some d.rF ∧
      benchmark.find? "w" = some d.w := by
  have hfind : ∀ (d : Dict ℝ) k, d.has k = true → d.find? k = some (Dict.getD d k 0) := by
    intro d k h
    obtain ⟨x, hx⟩ := (Dict.has_iff_exists d k).1 h
    simp [Dict.getD, hx]
  have hget : ∀ (d : Dict ℝ) k, d.has k = false → d.get k = .error (.keyError k) := by
    intro d k h
    unfold Dict.has at h
    unfold Dict.get
    cases h2 : d.find? k with
    | none => rfl
    | some x => rw [h2] at h; cases h
  have hget' : ∀ (d : Dict ℝ) k, d.has k = true → d.get k = .ok (Dict.getD d k 0) := by
    intro d k h
    unfold Dict.get
    rw [hfind d k h]
  have hreq : ∀ (d : Dict ℝ) ks, (d.require ks = .ok () ∧ ∀ k ∈ ks, d.has k = true) ∨
      ((∃ e, d.require ks = .error e) ∧ ¬ ∀ k ∈ ks, d.has k = true) := by
    intro d ks
    by_cases h : ∀ k ∈ ks, d.has k = true
    · exact .inl ⟨(Dict.require_ok_iff d ks).2 h, h⟩
    · refine .inr ⟨?_, h⟩
      cases h2 : d.require ks with
      | error e => exact ⟨e, rfl⟩
      | ok u => exact absurd ((Dict.require_ok_iff d ks).1 h2) h
  by_cases hsom : cfg.has "somersault" = true
  · rcases hreq meas measKeys with ⟨e1, h1⟩ | ⟨⟨x, e1⟩, h1⟩
    · rcases hreq measured ["hbb", "lcs"] with ⟨e2, h2⟩ | ⟨⟨x, e2⟩, h2⟩
      · rcases hreq benchmark ["rR", "rF"] with ⟨e3, h3⟩ | ⟨⟨x, e3⟩, h3⟩
        · rcases hreq measured ["lsp", "lst", "lamst", "whb", "LhbR", "LhbF"] with ⟨e4, h4⟩ | ⟨⟨x, e4⟩, h4⟩
          · rcases hreq benchmark ["w"] with ⟨e5, h5⟩ | ⟨⟨x, e5⟩, h5⟩
            · simp only [seatData, e1, hget' _ _ hsom, e2, e3, e4, e5, Except.bind, Except.ok.injEq]
              refine ⟨⟨fun _ => ⟨h1, hsom, ?_, ?_⟩, fun _ => ⟨_, rfl⟩⟩, ?_⟩
              · intro k hk
                simp only [List.mem_cons, List.not_mem_nil, or_false, forall_eq_or_imp, forall_eq] at h2 h4 hk
                rcases hk with rfl | rfl | rfl | rfl | rfl | rfl | rfl | rfl <;> simp [h2, h4]
              · intro k hk
                simp only [List.mem_cons, List.not_mem_nil, or_false, forall_eq_or_imp, forall_eq] at h3 h5 hk
                rcases hk with rfl | rfl | rfl <;> simp [h3, h5]
              · rintro d rfl
                refine ⟨hfind _ _ (h1 _ (by decide)), hfind _ _ (h1 _ (by decide)),
                  hfind _ _ (h1 _ (by decide)), hfind _ _ (h1 _ (by decide)),
                  hfind _ _ (h1 _ (by decide)), hfind _ _ (h1 _ (by decide)),
                  hfind _ _ (h1 _ (by decide)), hfind _ _ (h1 _ (by decide)), hfind _ _ hsom,
                  hfind _ _ (h2 _ (by decide)), hfind _ _ (h2 _ (by decide)),
                  hfind _ _ (h4 _ (by decide)), hfind _ _ (h4 _ (by decide)),
                  hfind _ _ (h4 _ (by decide)), hfind _ _ (h4 _ (by decide)),
                  hfind _ _ (h4 _ (by decide)), hfind _ _ (h4 _ (by decide)),
                  hfind _ _ (h3 _ (by decide)), hfind _ _ (h3 _ (by decide)),
                  hfind _ _ (h5 _ (by decide))⟩
            · simp only [seatData, e1, hget' _ _ hsom, e2, e3, e4, e5, Except.bind, reduceCtorEq,
                exists_false, false_iff, false_imp_iff, implies_true, and_true]
              exact fun hh => h5 fun k hk => hh.2.2.2 k (List.mem_of_mem_filter (p := fun k => k = "w")
                (by simp at hk; subst hk; decide))
          · simp only [seatData, e1, hget' _ _ hsom, e2, e3, e4, Except.bind, reduceCtorEq,
              exists_false, false_iff, false_imp_iff, implies_true, and_true]
            exact fun hh => h4 fun k hk => hh.2.2.1 k (by simp at hk ⊢; tauto)
        · simp only [seatData, e1, hget' _ _ hsom, e2, e3, Except.bind, reduceCtorEq,
            exists_false, false_iff, false_imp_iff, implies_true, and_true]
          exact fun hh => h3 fun k hk => hh.2.2.2 k (by simp at hk ⊢; tauto)
      · simp only [seatData, e1, hget' _ _ hsom, e2, Except.bind, reduceCtorEq,
          exists_false, false_iff, false_imp_iff, implies_true, and_true]
        exact fun hh => h2 fun k hk => hh.2.2.1 k (by simp at hk ⊢; tauto)
    · simp only [seatData, e1, Except.bind, reduceCtorEq,
        exists_false, false_iff, false_imp_iff, implies_true, and_true]
      exact fun hh => h1 hh.1
  · have hsom' : cfg.has "somersault" = false := by simpa using hsom
    rcases hreq meas measKeys with ⟨e1, h1⟩ | ⟨⟨x, e1⟩, h1⟩ <;>
      simp [seatData, e1, hget _ _ hsom', hsom', Except.bind]

/-- **C72.** `rider_on_bike`: if `fsolve` finds a zero, then with the joint angles of the
returned human both feet are at the bottom bracket (seen from the side), both hands are half
the handlebar width to either side of the symmetry plane, `LhbR` from the rear hub and `LhbF`
from the front hub, and both elbow axes are horizontal. -/
theorem C72_rider_on_bike
    (fsolve : (SeatUnknowns → Fin 10 → ℝ) → SeatUnknowns → SeatUnknowns)
    (meas cfg measured benchmark c : Dict ℝ) (d : SeatData)
    (hd : seatData meas cfg measured benchmark = .ok d)
    (hc : riderOnBike fsolve meas cfg measured benchmark = .ok c)
    (hz : ∀ i, seatResidual d (fsolve (seatResidual d) (seatGuess d)) i = 0) :
    let a := fun k => Dict.getD c k 0
    Seated d.rR d.rF d.w d.hbb d.lcs d.whb d.LhbR d.LhbF
      (d.toBike (footPoint (a "somersault") (a "PJ1extension") (a "J1J2flexion") d.Lj3L
        (d.Lj5L + d.Lj6L - d.Lj3L)))
      (d.toBike (handPoint (a "somersault") d.Ls4L (d.Ls4w / 2) (a "CA1extension") (a "CA1adduction")
        (a "CA1rotation") (a "A1A2extension") d.La2L (d.La4L + d.La5L - d.La2L)))
      (elbowAxis (a "somersault") (a "CA1extension") (a "CA1adduction") (a "CA1rotation")) ∧
    Seated d.rR d.rF d.w d.hbb d.lcs (-d.whb) d.LhbR d.LhbF
      (d.toBike (footPoint (a "somersault") (a "PK1extension") (a "K1K2flexion") d.Lj3L
        (d.Lj5L + d.Lj6L - d.Lj3L)))
      (d.toBike (handPoint (a "somersault") d.Ls4L (-(d.Ls4w / 2)) (a "CB1extension") (a "CB1abduction")
        (a "CB1rotation") (a "B1B2extension") d.La2L (d.La4L + d.La5L - d.La2L)))
      (elbowAxis (a "somersault") (a "CB1extension") (a "CB1abduction") (a "CB1rotation")) := by
  have hce : c = seatConfiguration cfg d.somersault (fsolve (seatResidual d) (seatGuess d)) := by
    unfold riderOnBike at hc
    rw [hd] at hc
    simpa [Except.bind] using hc.symm
  set s := fsolve (seatResidual d) (seatGuess d) with hs
  obtain ⟨h1, h2, h3, h4, h5, h6, h7, h8, h9, h10, h11, h12, h13, _⟩ :=
    C72_configuration cfg d.somersault s
  rw [← hce] at h1 h2 h3 h4 h5 h6 h7 h8 h9 h10 h11 h12 h13
  have left := (C72_residual_iff d s).1 ⟨s.alpha_y, s.alpha_z, s.beta_y, s.beta_z, hz⟩
  simp only [Dict.getD, h1, h2, h3, h4, h5, h6, h7, h8, h9, h10, h11, h12, h13, Option.getD_some]
  refine ⟨left, ⟨left.foot_x, left.foot_z, ?_, ?_, ?_, ?_⟩⟩
  · have := left.hand_y
    rw [hand_mirrored]
    simp only [SeatData.hand, SeatData.toBike, yeadonRot_mulVec, mirror, yeadonOrigin, Pi.add_apply,
      Matrix.cons_val_zero, Matrix.cons_val_one, Matrix.cons_val] at this ⊢
    linarith
  · have := left.rear
    rw [hand_mirrored, ← this]
    unfold dist3
    congr 1
    simp only [SeatData.hand, SeatData.toBike, yeadonRot_mulVec, mirror, yeadonOrigin, Pi.add_apply,
      Matrix.cons_val_zero, Matrix.cons_val_one, Matrix.cons_val]
    ring
  · have := left.front
    rw [hand_mirrored, ← this]
    unfold dist3
    congr 1
    simp only [SeatData.hand, SeatData.toBike, yeadonRot_mulVec, mirror, yeadonOrigin, Pi.add_apply,
      Matrix.cons_val_zero, Matrix.cons_val_one, Matrix.cons_val]
    ring
  · have := left.level
    simp only [elbowAxis, armFrame, ← Matrix.mulVec_mulVec, rotX_mulVec, rotY_mulVec, rotZ_mulVec,
      Matrix.cons_val_zero, Matrix.cons_val_one, Matrix.cons_val, sin_neg, cos_neg] at this ⊢
    linarith

/-- A rider sitting upright with hanging arms, straight legs and a vertical seat tube. -/
noncomputable def exampleSeat : SeatData :=
  { Lj3L := 1 / 2, Lj5L := 3 / 4, Lj6L := 1 / 4, Ls4L := 1, Ls4w := 2, La2L := 1 / 3, La4L := 2 / 3
    La5L := 1 / 3, somersault := 0, hbb := 1, lcs := 1, rR := 1, rF := 1, lsp := 1 / 2, lst := 1 / 2
    lamst := π / 2, whb := 2, LhbR := √3, LhbF := √2, w := 1 }

/-- a zero of the residual -/
theorem example_seated : ∀ i, seatResidual exampleSeat
    { PJ1extension := 0, J1J2flexion := 0, CA1extension := 0, CA1adduction := 0, CA1rotation := 0
      A1A2extension := 0, alpha_y := 0, alpha_z := 1, beta_y := -1, beta_z := 1 } i = 0 := by
  intro i
  fin_cases i <;> simp [seatResidual, exampleSeat] <;> norm_num

/-- **C72.** Nothing checks that `fsolve` converged: whatever it returns becomes the
configuration of the returned human. -/
theorem C72_no_convergence_check (meas cfg measured benchmark : Dict ℝ) (d : SeatData)
    (hd : seatData meas cfg measured benchmark = .ok d) (s : SeatUnknowns) :
    riderOnBike (fun _ _ => s) meas cfg measured benchmark =
      .ok (seatConfiguration cfg d.somersault s) := by
  unfold riderOnBike
  rw [hd]; rfl

/-! ## C98 -/

/-- The human made of point masses, in Yeadon's frame. -/
noncomputable def Spec.massOf (ps : List (ℝ × V3)) : ℝ := (ps.map fun p => p.1).sum

noncomputable def Spec.centreOf (ps : List (ℝ × V3)) : V3 :=
  fun i => (ps.map fun p => p.1 * p.2 i).sum / massOf ps

/-- Inertia tensor of point masses about a point. -/
noncomputable def Spec.inertiaAbout (o : V3) (ps : List (ℝ × V3)) : Matrix (Fin 3) (Fin 3) ℝ :=
  (ps.map fun p => p.1 • (((p.2 - o) ⬝ᵥ (p.2 - o)) • (1 : Matrix (Fin 3) (Fin 3) ℝ) -
    vecMulVec (p.2 - o) (p.2 - o))).sum

/-- What `yeadon` computes for these point masses. -/
noncomputable def Spec.humanOf (ps : List (ℝ × V3)) : Human :=
  ⟨massOf ps, centreOf ps, inertiaAbout (centreOf ps) ps⟩

theorem inertia_rotated (o o' : V3) (hb : V3 → V3) (h : ∀ v, hb v = o' + yeadonRot *ᵥ v)
    (ps : List (ℝ × V3)) :
    yeadonRot * inertiaAbout o ps * yeadonRotᵀ =
      inertiaAbout (hb o) (ps.map fun p => (p.1, hb p.2)) := by
  induction ps with
  | nil => simp [inertiaAbout]
  | cons p ps ih =>
    simp only [inertiaAbout, List.map_cons, List.sum_cons, Matrix.mul_add, Matrix.add_mul] at ih ⊢
    rw [ih]
    congr 1
    rw [h, h]
    ext i j
    fin_cases i <;> fin_cases j <;>
      simp [yeadonRot, Matrix.mul_apply, Matrix.mulVec, dotProduct, Fin.sum_univ_three, vecMulVec,
        Matrix.one_apply, Matrix.vecMul, Matrix.transpose_apply, -mul_eq_mul_left_iff] <;> ring

theorem centre_rotated (o' : V3) (hb : V3 → V3) (h : ∀ v, hb v = o' + yeadonRot *ᵥ v)
    (ps : List (ℝ × V3)) (hm : massOf ps ≠ 0) :
    hb (centreOf ps) = centreOf (ps.map fun p => (p.1, hb p.2)) := by
  have hM : massOf (ps.map fun p => (p.1, hb p.2)) = massOf ps := by
    simp [massOf, Function.comp_def]
  have key : ∀ (σ : Fin 3 → Fin 3), (∀ v : V3, ∀ i, (yeadonRot *ᵥ v) i = -v (σ i)) →
      ∀ i, hb (centreOf ps) i = centreOf (ps.map fun p => (p.1, hb p.2)) i := by
    intro σ hσ i
    have hsum : ((ps.map fun p => (p.1, hb p.2)).map fun p => p.1 * p.2 i).sum =
        o' i * massOf ps - (ps.map fun p => p.1 * p.2 (σ i)).sum := by
      unfold massOf
      clear hm hM
      induction ps with
      | nil => simp
      | cons p ps ih =>
        simp only [List.map_cons, List.sum_cons] at ih ⊢
        rw [ih, h, Pi.add_apply, hσ]
        ring
    have e1 : centreOf (ps.map fun p => (p.1, hb p.2)) i =
        ((ps.map fun p => (p.1, hb p.2)).map fun p => p.1 * p.2 i).sum /
          massOf (ps.map fun p => (p.1, hb p.2)) := rfl
    have e2 : centreOf ps (σ i) = (ps.map fun p => p.1 * p.2 (σ i)).sum / massOf ps := rfl
    rw [e1, hM, hsum, h, Pi.add_apply, hσ, e2]
    field_simp
    ring
  funext i
  refine key ![1, 0, 2] (fun v i => ?_) i
  rw [yeadonRot_mulVec]
  fin_cases i <;> simp

/-- **C98.** The rider's dictionary: for a human made of any point masses, `mB` is their total
mass, `xB`, `yB`, `zB` their mass centre and `IBxx`, `IByy`, `IBzz`, `IBxz` the entries of
their inertia tensor about the mass centre, all computed from the positions
`yeadon_vec_to_bicycle_vec` gives the points in the bicycle's frame. -/
theorem C98_rider_parameters (ps : List (ℝ × V3)) (hm : massOf ps ≠ 0)
    (bicyclePar measuredPar : Dict ℝ) (r : Dict ℝ)
    (hr : riderParOf (humanOf ps) bicyclePar measuredPar = .ok r) :
    ∃ hb : V3 → V3, (∀ v, yeadonVecToBicycleVec v measuredPar bicyclePar = .ok (hb v)) ∧
      let qs := ps.map fun p => (p.1, hb p.2)
      let I := inertiaAbout (centreOf qs) qs
      r.find? "mB" = some (massOf qs) ∧ r.find? "xB" = some (centreOf qs 0) ∧
      r.find? "yB" = some (centreOf qs 1) ∧ r.find? "zB" = some (centreOf qs 2) ∧
      r.find? "IBxx" = some (I 0 0) ∧ r.find? "IByy" = some (I 1 1) ∧
      r.find? "IBzz" = some (I 2 2) ∧ r.find? "IBxz" = some (I 0 2) := by
  unfold riderParOf at hr
  cases hv : yeadonVecToBicycleVec (humanOf ps).com measuredPar bicyclePar with
  | error e => rw [hv] at hr; cases hr
  | ok c =>
    rw [hv] at hr
    simp only [Except.bind, Except.ok.injEq] at hr
    obtain ⟨h1, h2⟩ := (C71_returns_iff _ _ _).1.1 ⟨_, hv⟩
    have hrun := fun v => yeadonVec_run v measuredPar bicyclePar h1 h2
    refine ⟨_, hrun, ?_⟩
    rw [hrun] at hv
    simp only [Except.ok.injEq] at hv
    set o := yeadonOrigin (Dict.getD measuredPar "hbb" 0)
      (Dict.getD measuredPar "lcs" 0) (Dict.getD bicyclePar "rR" 0) (Dict.getD measuredPar "lsp" 0)
      (Dict.getD measuredPar "lst" 0) (Dict.getD measuredPar "lamst" 0)
    have hcen := centre_rotated o (fun v => o + yeadonRot *ᵥ v) (fun _ => rfl) ps hm
    have hin := inertia_rotated (centreOf ps) o (fun v => o + yeadonRot *ᵥ v) (fun _ => rfl) ps
    have hc : c = centreOf (ps.map fun p => (p.1, o + yeadonRot *ᵥ p.2)) := by
      rw [← hv]; exact hcen
    rw [hcen] at hin
    have hI : (humanOf ps).inertiaTransformed yeadonRot =
        inertiaAbout (centreOf (ps.map fun p => (p.1, o + yeadonRot *ᵥ p.2)))
          (ps.map fun p => (p.1, o + yeadonRot *ᵥ p.2)) := hin
    have hM : massOf (ps.map fun p => (p.1, o + yeadonRot *ᵥ p.2)) = (humanOf ps).mass := by
      simp [massOf, humanOf, Function.comp_def]
    have hsym : ∀ (o : V3) (ps : List (ℝ × V3)), inertiaAbout o ps 2 0 = inertiaAbout o ps 0 2 := by
      intro o ps
      induction ps with
      | nil => simp [inertiaAbout]
      | cons p ps ih =>
        simp only [inertiaAbout, List.map_cons, List.sum_cons, Matrix.add_apply] at ih ⊢
        rw [ih]
        simp [vecMulVec, Matrix.one_apply, mul_comm]
    intro qs I
    have hqs : qs = ps.map fun p => (p.1, o + yeadonRot *ᵥ p.2) := rfl
    have hIe : I = (humanOf ps).inertiaTransformed yeadonRot := hI.symm
    rw [hIe, hqs, hM, ← hc]
    have h20 : (humanOf ps).inertiaTransformed yeadonRot 0 2 =
        (humanOf ps).inertiaTransformed yeadonRot 2 0 := by rw [hI, hsym]
    rw [h20, ← hr]
    simp [Dict.find?]

/-- **C98.** `configure_rider` changes the bicycle's dictionary only in the entries of the rear
frame, and if the rider's mass centre is in the symmetry plane the new rear frame has the mass,
first moments and inertia about the origin of bicycle frame and rider together (as C21 says for
`combine_bike_rider`). -/
theorem C98_configured (human : Except PyErr Human) (bicyclePar measuredPar r b : Dict ℝ)
    (h : configureRiderNumbers human bicyclePar measuredPar = .ok (r, b)) :
    (∀ k, k ∉ ["mB", "xB", "yB", "zB", "IBxx", "IBxz", "IByy", "IBzz"] →
      b.find? k = bicyclePar.find? k) ∧
    ((∀ H, human = .ok H → H.com 0 = 0) → Dict.getD bicyclePar "yB" 0 = 0 →
      (partB bicyclePar).m + (partB r).m ≠ 0 →
      (partB b).body.m = (partB bicyclePar).body.m + (partB r).body.m ∧
      (partB b).body.firstMoment = (partB bicyclePar).body.firstMoment + (partB r).body.firstMoment ∧
      (partB b).body.originInertia =
        (partB bicyclePar).body.originInertia + (partB r).body.originInertia) := by
  unfold configureRiderNumbers at h
  cases human with
  | error e => cases h
  | ok H =>
    simp only [Except.bind] at h
    cases hr : riderParOf H bicyclePar measuredPar with
    | error e => rw [hr] at h; cases h
    | ok r' =>
      rw [hr] at h
      simp only at h
      cases hb : combineBikeRider bicyclePar r' with
      | error e => rw [hb] at h; cases h
      | ok b' =>
        rw [hb] at h
        simp only [Except.ok.injEq, Prod.mk.injEq] at h
        obtain ⟨rfl, rfl⟩ := h
        obtain ⟨h1, h2⟩ := (C21_combine_dictionary bicyclePar r').2 b' hb
        refine ⟨h2, fun hx hy hm => ?_⟩
        have hcom := hx H rfl
        have hyr : (partB r').y = 0 := by
          unfold riderParOf at hr
          cases hv : yeadonVecToBicycleVec H.com measuredPar bicyclePar with
          | error e => rw [hv] at hr; cases hr
          | ok c =>
            rw [hv] at hr
            simp only [Except.bind, Except.ok.injEq] at hr
            obtain ⟨k1, k2⟩ := (C71_returns_iff _ _ _).1.1 ⟨_, hv⟩
            rw [yeadonVec_run _ _ _ k1 k2] at hv
            simp only [Except.ok.injEq] at hv
            rw [← hr]
            simp [partB, Dict.getD, Dict.find?, ← hv, yeadonRot_mulVec, yeadonOrigin, hcom]
        rw [h1]
        exact C21_combine_conserves _ _ hy hyr hm

/-- two point masses on either side -/
example : massOf [(30, ![0.2, 0, 0.5]), (30, ![-0.2, 0, 0.5])] ≠ 0 := by
  simp [massOf]

end BP
