import Verif.Lemmas.RigidAlgebra
import Verif.Props.Rolling

/-!
# Points of rigid bodies: velocities and accelerations
-/

set_option linter.unusedSimpArgs false

namespace BP.EL

open BP.Spec Matrix

/-- The coordinates of a vector. -/
def Tri.vec (a : Tri ℝ) : Fin 3 → ℝ := ![a.x, a.y, a.z]

/-- The cross product. -/
def crs (a b : Fin 3 → ℝ) : Fin 3 → ℝ :=
  ![a 1 * b 2 - a 2 * b 1, a 2 * b 0 - a 0 * b 2, a 0 * b 1 - a 1 * b 0]

/-- Turn a vector about an axis. -/
noncomputable def about : Axis → ℝ → (Fin 3 → ℝ) → Fin 3 → ℝ
  | .X => aboutX
  | .Y => aboutY
  | .Z => aboutZ

theorem vec_add (a b : Tri ℝ) : (addV reals a b).vec = a.vec + b.vec := by
  funext i; fin_cases i <;> simp [Tri.vec, addV, reals]

theorem vec_cross (a b : Tri ℝ) : (crossV reals a b).vec = crs a.vec b.vec := by
  funext i; fin_cases i <;> simp [Tri.vec, crossV, crs, FieldOps.sub, reals, sub_eq_add_neg]

theorem vec_unturn (ax : Axis) (θ : ℝ) (a : Tri ℝ) :
    (unturn reals ax (Real.cos θ) (Real.sin θ) a).vec = about ax (-θ) a.vec := by
  cases ax <;>
  · funext i
    fin_cases i <;> simp [Tri.vec, unturn, about, aboutX, aboutY, aboutZ, FieldOps.sub, reals, sub_eq_add_neg]
    all_goals ring

/-- The axis. -/
noncomputable def axisVec (ax : Axis) (k : ℝ) : Fin 3 → ℝ := (along reals ax k).vec

theorem crs_deriv {a b : ℝ → Fin 3 → ℝ} {a' b' : Fin 3 → ℝ} {s : ℝ} (ha : HasDerivAt a a' s) (hb : HasDerivAt b b' s) :
    HasDerivAt (fun t => crs (a t) (b t)) (crs a' (b s) + crs (a s) b') s := by
  have h := hasDerivAt_pi.mp ha
  have g := hasDerivAt_pi.mp hb
  refine hasDerivAt_vec3 ?_ ?_ ?_
  · exact (((h 1).mul (g 2)).sub ((h 2).mul (g 1))).congr_deriv (by simp [crs]; ring)
  · exact (((h 2).mul (g 0)).sub ((h 0).mul (g 2))).congr_deriv (by simp [crs]; ring)
  · exact (((h 0).mul (g 1)).sub ((h 1).mul (g 0))).congr_deriv (by simp [crs]; ring)

theorem about_deriv (ax : Axis) {θ : ℝ → ℝ} {θ' : ℝ} {v : ℝ → Fin 3 → ℝ} {v' : Fin 3 → ℝ} {t : ℝ}
    (hθ : HasDerivAt θ θ' t) (hv : HasDerivAt v v' t) :
    HasDerivAt (fun s => about ax (θ s) (v s)) (about ax (θ t) (v' + crs (axisVec ax θ') (v t))) t := by
  cases ax
  · refine (aboutX_deriv hθ hv).congr_deriv (congrArg _ (congrArg _ ?_))
    funext i; fin_cases i <;> simp [crs, axisVec, along, reals, Tri.vec]
  · refine (aboutY_deriv hθ hv).congr_deriv (congrArg _ (congrArg _ ?_))
    funext i; fin_cases i <;> simp [crs, axisVec, along, reals, Tri.vec]
  · refine (aboutZ_deriv hθ hv).congr_deriv (congrArg _ (congrArg _ ?_))
    funext i; fin_cases i <;> simp [crs, axisVec, along, reals, Tri.vec]

theorem about_back (ax : Axis) (θ : ℝ) (v : Fin 3 → ℝ) : about ax θ (about ax (-θ) v) = v := by
  have h := Real.sin_sq_add_cos_sq θ
  cases ax <;>
  · funext i
    fin_cases i <;> simp [about, aboutX, aboutY, aboutZ]
    all_goals first
      | linear_combination v 0 * h
      | linear_combination v 1 * h
      | linear_combination v 2 * h

theorem about_add (ax : Axis) (θ : ℝ) (a b : Fin 3 → ℝ) : about ax θ (a + b) = about ax θ a + about ax θ b := by
  cases ax <;>
  · funext i
    fin_cases i <;> simp [about, aboutX, aboutY, aboutZ]
    all_goals ring

theorem about_cross (ax : Axis) (θ : ℝ) (a b : Fin 3 → ℝ) : about ax θ (crs (about ax (-θ) a) b) =
    crs a (about ax θ b) := by
  have h := Real.sin_sq_add_cos_sq θ
  cases ax <;>
  · funext i
    fin_cases i <;> simp [about, aboutX, aboutY, aboutZ, crs]
    all_goals first
      | ring1
      | linear_combination (a 1 * b 2 - a 2 * b 1) * h
      | linear_combination (a 2 * b 0 - a 0 * b 2) * h
      | linear_combination (a 0 * b 1 - a 1 * b 0) * h
      | linear_combination (a 1 * b 0) * h
      | linear_combination (-(a 1 * b 0)) * h
      | linear_combination (a 0 * b 1) * h
      | linear_combination (-(a 0 * b 1)) * h
      | linear_combination (a 2 * b 0) * h
      | linear_combination (-(a 2 * b 0)) * h
      | linear_combination (a 0 * b 2) * h
      | linear_combination (-(a 0 * b 2)) * h
      | linear_combination (a 1 * b 2) * h
      | linear_combination (-(a 1 * b 2)) * h
      | linear_combination (a 2 * b 1) * h
      | linear_combination (-(a 2 * b 1)) * h

theorem about_dot (ax : Axis) (θ : ℝ) (a b : Fin 3 → ℝ) : about ax θ a ⬝ᵥ about ax θ b = a ⬝ᵥ b := by
  have h := Real.sin_sq_add_cos_sq θ
  cases ax <;> simp [about, aboutX, aboutY, aboutZ, dotProduct, Fin.sum_univ_three]
  · linear_combination (a 1 * b 1 + a 2 * b 2) * h
  · linear_combination (a 0 * b 0 + a 2 * b 2) * h
  · linear_combination (a 0 * b 0 + a 1 * b 1) * h

theorem about_move (ax : Axis) (θ : ℝ) (a b : Fin 3 → ℝ) : a ⬝ᵥ about ax θ b = about ax (-θ) a ⬝ᵥ b := by
  cases ax <;> simp [about, aboutX, aboutY, aboutZ, dotProduct, Fin.sum_univ_three] <;> ring

/-- `f` is the motion at the time `s` of the body whose points are at `P t u`; `R` are its directions. -/
structure Rigid (P R : ℝ → (Fin 3 → ℝ) → Fin 3 → ℝ) (f : Fr ℝ) (s : ℝ) : Prop where
  place : ∀ (u : ℝ → Fin 3 → ℝ) (u' : Fin 3 → ℝ), HasDerivAt u u' s →
    HasDerivAt (fun t => P t (u t)) (R s (u' + f.v.vec + crs f.w.vec (u s))) s
  turn : ∀ (u : ℝ → Fin 3 → ℝ) (u' : Fin 3 → ℝ), HasDerivAt u u' s →
    HasDerivAt (fun t => R t (u t)) (R s (u' + crs f.w.vec (u s))) s
  iso : ∀ a b, R s a ⬝ᵥ R s b = a ⬝ᵥ b
  down : ∀ a, R s a 2 = f.dn.vec ⬝ᵥ a

theorem crs_add_right (a b c : Fin 3 → ℝ) : crs a (b + c) = crs a b + crs a c := by
  funext i; fin_cases i <;> simp [crs] <;> ring

theorem crs_add_left (a b c : Fin 3 → ℝ) : crs (a + b) c = crs a c + crs b c := by
  funext i; fin_cases i <;> simp [crs] <;> ring

theorem rigid_joint {P R : ℝ → (Fin 3 → ℝ) → Fin 3 → ℝ} {f : Fr ℝ} {s : ℝ} (h : Rigid P R f s) (d : Tri ℝ) (ax : Axis)
    {θ : ℝ → ℝ} {θ' : ℝ} (hθ : HasDerivAt θ θ' s) (a : ℝ) :
    Rigid (fun t u => P t (d.vec + about ax (θ t) u)) (fun t u => R t (about ax (θ t) u))
      (jointOf reals f d ax (Real.cos (θ s)) (Real.sin (θ s)) θ' a) s where
  place u u' hu := by
    refine (h.place _ _ ((about_deriv ax hθ hu).const_add d.vec)).congr_deriv (congrArg _ ?_)
    simp only [jointOf, vec_add, vec_unturn, vec_cross, about_add, crs_add_left, about_back, crs_add_right, about_cross]
    rw [show (along reals ax θ').vec = axisVec ax θ' from rfl]
    abel
  turn u u' hu := by
    refine (h.turn _ _ (about_deriv ax hθ hu)).congr_deriv (congrArg _ ?_)
    simp only [jointOf, vec_add, vec_unturn, vec_cross, about_add, crs_add_left, about_back, crs_add_right, about_cross]
    rw [show (along reals ax θ').vec = axisVec ax θ' from rfl]
    abel
  iso a b := by rw [h.iso, about_dot]
  down a := by rw [h.down, about_move]; simp only [jointOf, vec_unturn]

theorem rigid_shift {P R : ℝ → (Fin 3 → ℝ) → Fin 3 → ℝ} {f : Fr ℝ} {s : ℝ} (h : Rigid P R f s) (d : Tri ℝ) :
    Rigid (fun t u => P t (d.vec + u)) R (shiftOf reals f d) s where
  place u u' hu := by
    refine (h.place _ _ (hu.const_add d.vec)).congr_deriv (congrArg _ ?_)
    simp only [shiftOf, vec_add, vec_cross, crs_add_right]
    abel
  turn := h.turn
  iso := h.iso
  down := h.down

theorem rigid_ground {X : ℝ → Fin 3 → ℝ} {u c : Nine ℝ} {s : ℝ} (h : HasDerivAt X ![u.n1, u.n2, 0] s) :
    Rigid (fun t v => X t + v) (fun _ v => v) (frN reals u c) s where
  place v v' hv := by
    refine (h.add hv).congr_deriv ?_
    funext i; fin_cases i <;> simp [frN, Tri.vec, crs, zeroV, reals, add_comm, -Matrix.cons_add, -Matrix.add_cons] <;> try rfl
  turn v v' hv := by
    refine hv.congr_deriv ?_
    funext i; fin_cases i <;> simp [frN, Tri.vec, crs, zeroV, reals]
  iso _ _ := rfl
  down v := by simp [frN, Tri.vec, reals, dotProduct, Fin.sum_univ_three]

/-- `vd` and `wd` are the derivatives of `v` and `w`. -/
structure Speeds (f : ℝ → Fr ℝ) (s : ℝ) : Prop where
  v : HasDerivAt (fun t => (f t).v.vec) (f s).vd.vec s
  w : HasDerivAt (fun t => (f t).w.vec) (f s).wd.vec s

theorem crs_neg_left (a b : Fin 3 → ℝ) : crs (-a) b = crs b a := by
  funext i; fin_cases i <;> simp [crs] <;> ring

theorem axis_neg (ax : Axis) (k : ℝ) : axisVec ax (-k) = -axisVec ax k := by
  cases ax <;>
  · funext i
    fin_cases i <;> simp [axisVec, along, reals, Tri.vec]

theorem about_axis (ax : Axis) (θ k : ℝ) (v : Fin 3 → ℝ) : about ax θ (crs v (axisVec ax k)) =
    crs (about ax θ v) (axisVec ax k) := by
  cases ax <;>
  · funext i
    fin_cases i <;> simp [axisVec, along, reals, Tri.vec, about, aboutX, aboutY, aboutZ, crs]
    all_goals ring

theorem axis_deriv (ax : Axis) {u : ℝ → ℝ} {a s : ℝ} (h : HasDerivAt u a s) :
    HasDerivAt (fun t => axisVec ax (u t)) (axisVec ax a) s := by
  cases ax <;>
  · refine hasDerivAt_vec3 ?_ ?_ ?_ <;> simp only [axisVec, along, reals, Tri.vec, Matrix.cons_val]
    all_goals first
      | exact h
      | exact hasDerivAt_const s (0 : ℝ)

theorem speeds_joint {f : ℝ → Fr ℝ} {s : ℝ} (h : Speeds f s) (d : Tri ℝ) (ax : Axis) {θ u a : ℝ → ℝ}
    (hθ : HasDerivAt θ (u s) s) (hu : HasDerivAt u (a s) s) :
    Speeds (fun t => jointOf reals (f t) d ax (Real.cos (θ t)) (Real.sin (θ t)) (u t) (a t)) s where
  v := by
    simp only [jointOf, vec_add, vec_unturn, vec_cross]
    refine (about_deriv ax hθ.neg (h.v.add (crs_deriv h.w (hasDerivAt_const s d.vec)))).congr_deriv ?_
    have z : crs (f s).w.vec 0 = 0 := by funext i; fin_cases i <;> simp [crs]
    rw [z, add_zero, about_add, axis_neg, crs_neg_left, about_axis]
    rfl
  w := by
    simp only [jointOf, vec_add, vec_unturn, vec_cross]
    refine ((about_deriv ax hθ.neg h.w).add (axis_deriv ax hu)).congr_deriv ?_
    rw [about_add, axis_neg, crs_neg_left, about_axis, Pi.neg_apply]
    rw [show (along reals ax (a s)).vec = axisVec ax (a s) from rfl,
      show (along reals ax (u s)).vec = axisVec ax (u s) from rfl]
    abel

theorem speeds_shift {f : ℝ → Fr ℝ} {s : ℝ} (h : Speeds f s) (d : Tri ℝ) : Speeds (fun t => shiftOf reals (f t) d) s where
  v := by
    simp only [shiftOf, vec_add, vec_cross]
    refine (h.v.add (crs_deriv h.w (hasDerivAt_const s d.vec))).congr_deriv ?_
    have z : crs (f s).w.vec 0 = 0 := by funext i; fin_cases i <;> simp [crs]
    rw [z, add_zero]
  w := h.w

theorem speeds_ground {u a : ℝ → Nine ℝ} {s : ℝ} (h1 : HasDerivAt (fun t => (u t).n1) (a s).n1 s)
    (h2 : HasDerivAt (fun t => (u t).n2) (a s).n2 s) : Speeds (fun t => frN reals (u t) (a t)) s where
  v := by
    refine hasDerivAt_vec3 ?_ ?_ ?_
    · exact h1
    · exact h2
    · exact hasDerivAt_const s (0 : ℝ)
  w := by
    refine hasDerivAt_vec3 ?_ ?_ ?_ <;> exact hasDerivAt_const s (0 : ℝ)

/-- The velocity and the acceleration of a point. -/
theorem point_moves {P R : ℝ → (Fin 3 → ℝ) → Fin 3 → ℝ} {f : ℝ → Fr ℝ} {t : ℝ} (h : ∀ᶠ s in nhds t, Rigid P R (f s) s)
    (hs : Speeds f t) (c : Fin 3 → ℝ) :
    (∀ᶠ s in nhds t, DifferentiableAt ℝ (fun s => P s c) s) ∧
    HasDerivAt (deriv fun s => P s c)
      (R t ((f t).vd.vec + crs (f t).w.vec (f t).v.vec + crs (f t).wd.vec c + crs (f t).w.vec (crs (f t).w.vec c))) t := by
  have hv : ∀ᶠ s in nhds t, HasDerivAt (fun s => P s c) (R s ((f s).v.vec + crs (f s).w.vec c)) s := by
    filter_upwards [h] with s hr
    refine (hr.place (fun _ => c) 0 (hasDerivAt_const s c)).congr_deriv ?_
    rw [zero_add]
  refine ⟨hv.mono fun s hs => hs.differentiableAt, ?_⟩
  have e : (deriv fun s => P s c) =ᶠ[nhds t] fun s => R s ((f s).v.vec + crs (f s).w.vec c) :=
    hv.mono fun s hs => hs.deriv
  refine HasDerivAt.congr_of_eventuallyEq ?_ e
  refine (h.self_of_nhds.turn _ _ (hs.v.add (crs_deriv hs.w (hasDerivAt_const t c)))).congr_deriv (congrArg _ ?_)
  have z : crs (f t).w.vec 0 = 0 := by funext i; fin_cases i <;> simp [crs]
  rw [z, Pi.add_apply, crs_add_right]
  abel

theorem point_velocity {P R : ℝ → (Fin 3 → ℝ) → Fin 3 → ℝ} {g : Fr ℝ} {t : ℝ} (h : Rigid P R g t) (c : Fin 3 → ℝ) :
    HasDerivAt (fun s => P s c) (R t (g.v.vec + crs g.w.vec c)) t := by
  refine (h.place (fun _ => c) 0 (hasDerivAt_const t c)).congr_deriv ?_
  rw [zero_add]

/-- Sums over the particles of a body. -/
theorem particle_sums {ι : Type} [Fintype ι] (m : ι → ℝ) (c : ι → Fin 3 → ℝ) (mass i11 i22 i33 i31 : ℝ)
    (h0 : ∑ i, m i = mass) (h1 : ∀ k, ∑ i, m i * c i k = 0)
    (h11 : ∑ i, m i * (c i 1 * c i 1 + c i 2 * c i 2) = i11) (h22 : ∑ i, m i * (c i 0 * c i 0 + c i 2 * c i 2) = i22)
    (h33 : ∑ i, m i * (c i 0 * c i 0 + c i 1 * c i 1) = i33) (h31 : ∑ i, m i * (c i 0 * c i 2) = -i31)
    (h12 : ∑ i, m i * (c i 0 * c i 1) = 0) (h23 : ∑ i, m i * (c i 1 * c i 2) = 0) (A α ω v w : Fin 3 → ℝ) :
    ∑ i, m i * ((A + crs α (c i) + crs ω (crs ω (c i))) ⬝ᵥ (v + crs w (c i))) =
      mass * (A 0 * v 0 + A 1 * v 1 + A 2 * v 2) +
      ((i11 * α 0 + i31 * α 2 + (ω 1 * (i31 * ω 0 + i33 * ω 2) - ω 2 * (i22 * ω 1))) * w 0 +
      (i22 * α 1 + (ω 2 * (i11 * ω 0 + i31 * ω 2) - ω 0 * (i31 * ω 0 + i33 * ω 2))) * w 1 +
      (i31 * α 0 + i33 * α 2 + (ω 0 * (i22 * ω 1) - ω 1 * (i11 * ω 0 + i31 * ω 2))) * w 2) := by
  obtain ⟨n, hn⟩ : ∃ n, n = crs ω w := ⟨_, rfl⟩
  obtain ⟨k, hk⟩ : ∃ k : Fin 3 → ℝ, k = crs A w + crs v α +
    ((ω 0 * v 0 + ω 1 * v 1 + ω 2 * v 2) • ω - (ω 0 * ω 0 + ω 1 * ω 1 + ω 2 * ω 2) • v) := ⟨_, rfl⟩
  have key : ∀ i, m i * ((A + crs α (c i) + crs ω (crs ω (c i))) ⬝ᵥ (v + crs w (c i))) =
      m i * (A 0 * v 0 + A 1 * v 1 + A 2 * v 2) + m i * c i 0 * k 0 + m i * c i 1 * k 1 + m i * c i 2 * k 2 +
      m i * (c i 1 * c i 1 + c i 2 * c i 2) * (α 0 * w 0 - ω 0 * n 0) +
      m i * (c i 0 * c i 0 + c i 2 * c i 2) * (α 1 * w 1 - ω 1 * n 1) +
      m i * (c i 0 * c i 0 + c i 1 * c i 1) * (α 2 * w 2 - ω 2 * n 2) +
      m i * (c i 0 * c i 2) * (ω 0 * n 2 + ω 2 * n 0 - α 0 * w 2 - α 2 * w 0) +
      m i * (c i 0 * c i 1) * (ω 0 * n 1 + ω 1 * n 0 - α 0 * w 1 - α 1 * w 0) +
      m i * (c i 1 * c i 2) * (ω 1 * n 2 + ω 2 * n 1 - α 1 * w 2 - α 2 * w 1) := by
    intro i
    rw [hn, hk]
    simp only [crs, dotProduct, Fin.sum_univ_three, Pi.add_apply, Pi.sub_apply, Pi.smul_apply, smul_eq_mul,
      Matrix.cons_val]
    ring
  rw [Finset.sum_congr rfl fun i _ => key i]
  simp only [Finset.sum_add_distrib, ← Finset.sum_mul]
  rw [h0, h1 0, h1 1, h1 2, h11, h22, h33, h31, h12, h23, hn]
  simp [crs]
  ring

theorem vec_get (a : Tri ℝ) : a.vec 0 = a.x ∧ a.vec 1 = a.y ∧ a.vec 2 = a.z := ⟨rfl, rfl, rfl⟩

/-- A body of particles. -/
theorem body_sums {ι : Type} [Fintype ι] (m : ι → ℝ) (c : ι → Fin 3 → ℝ) (mass i11 i22 i33 i31 : ℝ)
    (h0 : ∑ i, m i = mass) (h1 : ∀ k, ∑ i, m i * c i k = 0)
    (h11 : ∑ i, m i * (c i 1 * c i 1 + c i 2 * c i 2) = i11) (h22 : ∑ i, m i * (c i 0 * c i 0 + c i 2 * c i 2) = i22)
    (h33 : ∑ i, m i * (c i 0 * c i 0 + c i 1 * c i 1) = i33) (h31 : ∑ i, m i * (c i 0 * c i 2) = -i31)
    (h12 : ∑ i, m i * (c i 0 * c i 1) = 0) (h23 : ∑ i, m i * (c i 1 * c i 2) = 0)
    {P R : ℝ → (Fin 3 → ℝ) → Fin 3 → ℝ} {f g : Fr ℝ} {s t : ℝ} (hf : Rigid P R f s)
    {P' R' : ℝ → (Fin 3 → ℝ) → Fin 3 → ℝ} (hg : Rigid P' R' g t) (same : ∀ a, R s a = R' t a) :
    ∑ i, m i * (R s (f.vd.vec + crs f.w.vec f.v.vec + crs f.wd.vec (c i) + crs f.w.vec (crs f.w.vec (c i))) ⬝ᵥ
      R' t (g.v.vec + crs g.w.vec (c i))) = inertial reals mass i11 i22 i33 i31 f g ∧
    ∑ i, m i * R' t (g.v.vec + crs g.w.vec (c i)) 2 = mass * sinking reals g := by
  refine ⟨?_, ?_⟩
  · have e : ∀ i, m i * (R s (f.vd.vec + crs f.w.vec f.v.vec + crs f.wd.vec (c i) + crs f.w.vec (crs f.w.vec (c i))) ⬝ᵥ
        R' t (g.v.vec + crs g.w.vec (c i))) = m i * ((f.vd.vec + crs f.w.vec f.v.vec + crs f.wd.vec (c i) +
          crs f.w.vec (crs f.w.vec (c i))) ⬝ᵥ (g.v.vec + crs g.w.vec (c i))) := fun i => by rw [← same, hf.iso]
    rw [Finset.sum_congr rfl fun i _ => e i, particle_sums m c mass i11 i22 i33 i31 h0 h1 h11 h22 h33 h31 h12 h23]
    simp [inertial, dotV, addV, crossV, tensor, FieldOps.sub, reals, Tri.vec, crs]
    ring
  · have e : ∀ i, m i * R' t (g.v.vec + crs g.w.vec (c i)) 2 = m i * (g.dn.vec ⬝ᵥ g.v.vec) +
        m i * c i 0 * crs g.dn.vec g.w.vec 0 + m i * c i 1 * crs g.dn.vec g.w.vec 1 +
        m i * c i 2 * crs g.dn.vec g.w.vec 2 := by
      intro i
      rw [hg.down]
      simp [crs, dotProduct, Fin.sum_univ_three]
      ring
    rw [Finset.sum_congr rfl fun i _ => e i]
    simp only [Finset.sum_add_distrib, ← Finset.sum_mul]
    rw [h0, h1 0, h1 1, h1 2]
    simp [sinking, dotV, reals, Tri.vec, dotProduct, Fin.sum_univ_three]

end BP.EL
