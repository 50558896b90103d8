import Verif.Lemmas.RigidMotion
import Verif.Lemmas.DynamicsSound
import Verif.Spec.Dynamics

/-!
# The bodies of the bicycle move as the frames say
-/

set_option linter.unusedSimpArgs false

namespace BP.EL

open BP.Spec Matrix

/-- Angles and lengths. -/
noncomputable def confOf (f : String → ℝ) (lam : ℝ) (x : Fin 13 → ℝ) : Conf ℝ where
  c3 := Real.cos (x 2)
  s3 := Real.sin (x 2)
  c4 := Real.cos (x 3)
  s4 := Real.sin (x 3)
  c5 := Real.cos (x 4)
  s5 := Real.sin (x 4)
  c6 := Real.cos (x 5)
  s6 := Real.sin (x 5)
  c7 := Real.cos (x 6)
  s7 := Real.sin (x 6)
  c8 := Real.cos (x 7)
  s8 := Real.sin (x 7)
  c9 := Real.cos (x 8)
  s9 := Real.sin (x 8)
  cl := Real.cos lam
  sl := Real.sin lam
  rr := f "rr"
  d1 := f "d1"
  d2 := f "d2"
  d3 := f "d3"
  d4 := f "d4"

/-- Nine rates. -/
def nineOf (x : Fin 13 → ℝ) : Nine ℝ := ⟨x 0, x 1, x 2, x 3, x 4, x 5, x 6, x 7, x 8⟩

/-- Masses and lengths. -/
def heavyOf (f : String → ℝ) : Heavy ℝ where
  l1 := f "l1"
  l2 := f "l2"
  l3 := f "l3"
  l4 := f "l4"
  l5 := f "l5"
  l6 := f "l6"
  mc := f "mc"
  md := f "md"
  me := f "me"
  mf := f "mf"
  mg := f "mg"
  ic11 := f "ic11"
  ic22 := f "ic22"
  ic33 := f "ic33"
  ic31 := f "ic31"
  id11 := f "id11"
  id22 := f "id22"
  ie11 := f "ie11"
  ie22 := f "ie22"
  ie33 := f "ie33"
  ie31 := f "ie31"
  if11 := f "if11"
  if22 := f "if22"
  ig11 := f "ig11"
  ig22 := f "ig22"
  ig33 := f "ig33"
  ig31 := f "ig31"

/-- The frame of a body. -/
def partFr (g : Five ℝ) : Spec.Part → Fr ℝ
  | .rearFrame => g.fC
  | .rearWheel => g.fD
  | .frontFrame => g.fE
  | .frontWheel => g.fF
  | .rider => g.fG

/-- The directions of a body. -/
noncomputable def partTurn (lam : ℝ) (x : Fin 13 → ℝ) : Spec.Part → (Fin 3 → ℝ) → Fin 3 → ℝ
  | .rearFrame, v => aboutZ (x 2) (aboutX (x 3) (aboutY (x 4) v))
  | .rearWheel, v => aboutZ (x 2) (aboutX (x 3) (aboutY (x 4) (aboutY (x 5) v)))
  | .frontFrame, v => aboutZ (x 2) (aboutX (x 3) (aboutY (x 4) (aboutZ (x 6) v)))
  | .frontWheel, v => aboutZ (x 2) (aboutX (x 3) (aboutY (x 4) (aboutZ (x 6) (aboutY (x 7) v))))
  | .rider, v => aboutZ (x 2) (aboutX (x 3) (aboutY (x 4) (aboutY (-lam) (aboutX (x 8) v))))

theorem zero_vec : (zeroV reals).vec = 0 := by
  funext i; fin_cases i <;> simp [zeroV, Tri.vec, reals]

/-- The motion of the bodies. -/
noncomputable def motionOf (f : String → ℝ) (lam : ℝ) (x : Fin 13 → ℝ) (u a : Nine ℝ) : Five ℝ :=
  centred reals (confOf f lam x) (heavyOf f) (bodies reals (confOf f lam x) u a)

theorem parts_rigid (f : String → ℝ) (lam : ℝ) {x : ℝ → Fin 13 → ℝ} {x' : Fin 13 → ℝ} {s : ℝ} (a : Nine ℝ)
    (hx : ∀ i : Fin 13, i.1 < 9 → HasDerivAt (fun t => x t i) (x' i) s) (part : Spec.Part) :
    Rigid (fun t => part.place f lam (x t)) (fun t => partTurn lam (x t) part)
      (partFr (motionOf f lam (x s) (nineOf x') a) part) s := by
  have g : HasDerivAt (fun t => (![x t 0, x t 1, 0] : Fin 3 → ℝ)) ![(nineOf x').n1, (nineOf x').n2, 0] s := by
    refine hasDerivAt_vec3 ?_ ?_ ?_
    · exact hx 0 (by decide)
    · exact hx 1 (by decide)
    · exact hasDerivAt_const s (0 : ℝ)
  have rN := rigid_ground (c := a) g
  have rB := rigid_joint rN (zeroV reals) .Z (hx 2 (by decide)) a.n3
  have rA := rigid_joint rB (zeroV reals) .X (hx 3 (by decide)) a.n4
  have rC := rigid_joint rA (offC reals (confOf f lam (x s))) .Y (hx 4 (by decide)) a.n5
  have rD := rigid_joint rC (zeroV reals) .Y (hx 5 (by decide)) a.n6
  have rE := rigid_joint rC (offE reals (confOf f lam (x s))) .Z (hx 6 (by decide)) a.n7
  have rF := rigid_joint rE (offF reals (confOf f lam (x s))) .Y (hx 7 (by decide)) a.n8
  have rH := rigid_joint rC (offH reals (confOf f lam (x s))) .Y (hasDerivAt_const s (-lam)) 0
  have rG := rigid_joint rH (zeroV reals) .X (hx 8 (by decide)) a.n9
  simp only [zero_vec, zero_add] at rB rA rC rD rE rF rH rG
  rw [Real.cos_neg, Real.sin_neg] at rH rG
  cases part
  · exact rigid_shift rC ⟨f "l1", 0, f "l2"⟩
  · exact rD
  · exact rigid_shift rE ⟨f "d3" + f "l3", 0, f "d2" + f "l4"⟩
  · exact rF
  · exact rigid_shift rG ⟨f "l5", 0, f "l6"⟩

theorem parts_speeds (f : String → ℝ) (lam : ℝ) {x : ℝ → Fin 13 → ℝ} {u : ℝ → Nine ℝ} {t : ℝ} (a : Nine ℝ)
    (hx : ∀ i : Fin 13, i.1 < 9 → HasDerivAt (fun t => x t i) (![(u t).n1, (u t).n2, (u t).n3, (u t).n4, (u t).n5,
      (u t).n6, (u t).n7, (u t).n8, (u t).n9, 0, 0, 0, 0] i) t)
    (h1 : HasDerivAt (fun s => (u s).n1) a.n1 t) (h2 : HasDerivAt (fun s => (u s).n2) a.n2 t)
    (h3 : HasDerivAt (fun s => (u s).n3) a.n3 t) (h4 : HasDerivAt (fun s => (u s).n4) a.n4 t)
    (h5 : HasDerivAt (fun s => (u s).n5) a.n5 t) (h6 : HasDerivAt (fun s => (u s).n6) a.n6 t)
    (h7 : HasDerivAt (fun s => (u s).n7) a.n7 t) (h8 : HasDerivAt (fun s => (u s).n8) a.n8 t)
    (h9 : HasDerivAt (fun s => (u s).n9) a.n9 t) (part : Spec.Part) :
    Speeds (fun s => partFr (motionOf f lam (x s) (u s) a) part) t := by
  have rN := speeds_ground (a := fun _ => a) h1 h2
  have rB := speeds_joint rN (zeroV reals) .Z (a := fun _ => a.n3) (hx 2 (by decide)) h3
  have rA := speeds_joint rB (zeroV reals) .X (a := fun _ => a.n4) (hx 3 (by decide)) h4
  have rC := speeds_joint rA (offC reals (confOf f lam (x t))) .Y (a := fun _ => a.n5) (hx 4 (by decide)) h5
  have rD := speeds_joint rC (zeroV reals) .Y (a := fun _ => a.n6) (hx 5 (by decide)) h6
  have rE := speeds_joint rC (offE reals (confOf f lam (x t))) .Z (a := fun _ => a.n7) (hx 6 (by decide)) h7
  have rF := speeds_joint rE (offF reals (confOf f lam (x t))) .Y (a := fun _ => a.n8) (hx 7 (by decide)) h8
  have rH := speeds_joint rC (offH reals (confOf f lam (x t))) .Y (u := fun _ => 0) (a := fun _ => 0)
    (hasDerivAt_const t (-lam)) (hasDerivAt_const t (0 : ℝ))
  have rG := speeds_joint rH (zeroV reals) .X (a := fun _ => a.n9) (hx 8 (by decide)) h9
  simp only [Real.cos_neg, Real.sin_neg] at rH rG
  cases part
  · exact speeds_shift rC ⟨f "l1", 0, f "l2"⟩
  · exact rD
  · exact speeds_shift rE ⟨f "d3" + f "l3", 0, f "d2" + f "l4"⟩
  · exact rF
  · exact speeds_shift rG ⟨f "l5", 0, f "l6"⟩

end BP.EL
