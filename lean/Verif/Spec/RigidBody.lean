import Mathlib.LinearAlgebra.CrossProduct
import Mathlib.Data.Real.Basic
import Mathlib.Analysis.SpecialFunctions.Trigonometric.Basic

/-!
# Specification: rigid bodies

Textbook mechanics, independent of the code: kinetic energy, and mass moments
about the origin.  Coordinates are SAE: x forward, y right, z down.
-/

namespace BP.Spec

open Matrix Real

abbrev V3 := Fin 3 → ℝ

/-- A rigid body: mass, mass centre, central inertia tensor. -/
structure Body where
  m : ℝ
  r : V3
  I : Matrix (Fin 3) (Fin 3) ℝ

/-- Kinetic energy of a body with mass-centre velocity `v`, angular velocity `ω`. -/
noncomputable def Body.energy (b : Body) (v ω : V3) : ℝ :=
  1 / 2 * b.m * (v ⬝ᵥ v) + 1 / 2 * (ω ⬝ᵥ (b.I *ᵥ ω))

/-- First moment of mass about the origin. -/
def Body.firstMoment (b : Body) : V3 := b.m • b.r

/-- Inertia tensor about the origin. -/
def Body.originInertia (b : Body) : Matrix (Fin 3) (Fin 3) ℝ :=
  b.I + b.m • ((b.r ⬝ᵥ b.r) • (1 : Matrix (Fin 3) (Fin 3) ℝ) - vecMulVec b.r b.r)

/-- Velocity of a point `r` of a body turning with `ω` about a fixed point `o`. -/
def rotVel (ω o r : V3) : V3 := ω ⨯₃ (r - o)

end BP.Spec

namespace BP.Spec

open Matrix Real

/-- The in-plane mass moments of a body about the origin. -/
structure Moments where
  (m sx sz Jxx Jxz Jzz : ℝ)

@[ext] theorem Moments.ext {a b : Moments} (h1 : a.m = b.m) (h2 : a.sx = b.sx) (h3 : a.sz = b.sz)
    (h4 : a.Jxx = b.Jxx) (h5 : a.Jxz = b.Jxz) (h6 : a.Jzz = b.Jzz) : a = b := by
  cases a; cases b; simp_all

/-- The moments of a body: mass, first moments, entries of the inertia tensor
about the origin. -/
def Body.moments (b : Body) : Moments :=
  ⟨b.m, b.firstMoment 0, b.firstMoment 2,
    b.originInertia 0 0, b.originInertia 0 2, b.originInertia 2 2⟩

instance : Zero Moments := ⟨⟨0, 0, 0, 0, 0, 0⟩⟩
instance : Add Moments :=
  ⟨fun a b => ⟨a.m + b.m, a.sx + b.sx, a.sz + b.sz, a.Jxx + b.Jxx, a.Jxz + b.Jxz, a.Jzz + b.Jzz⟩⟩

@[simp] theorem Moments.add_m (a b : Moments) : (a + b).m = a.m + b.m := rfl
@[simp] theorem Moments.add_sx (a b : Moments) : (a + b).sx = a.sx + b.sx := rfl
@[simp] theorem Moments.add_sz (a b : Moments) : (a + b).sz = a.sz + b.sz := rfl
@[simp] theorem Moments.add_Jxx (a b : Moments) : (a + b).Jxx = a.Jxx + b.Jxx := rfl
@[simp] theorem Moments.add_Jxz (a b : Moments) : (a + b).Jxz = a.Jxz + b.Jxz := rfl
@[simp] theorem Moments.add_Jzz (a b : Moments) : (a + b).Jzz = a.Jzz + b.Jzz := rfl

/-- A body of the symmetry plane `y = 0` whose inertia tensor has no xy, yz terms. -/
def planarBody (m x z Ixx Iyy Ixz Izz : ℝ) : Body :=
  ⟨m, ![x, 0, z], !![Ixx, 0, Ixz; 0, Iyy, 0; Ixz, 0, Izz]⟩

/-! ### The bicycle's lateral kinematics

The rear assembly rolls with rate `φ'` about the x axis and yaws with rate `ψ'`
about the z axis, through the rear contact point (the origin).  The front
assembly turns in addition with the steer rate `δ'` about the steer axis, which
passes through the ground point `(w + c, 0, 0)` with direction
`(sin λ, 0, cos λ)`.  The front contact point `(w, 0, 0)` must not slip
sideways: `ψ' w = (c cos λ) δ'`. -/

/-- Direction of the steer axis. -/
noncomputable def steerDir (lam : ℝ) : V3 := ![sin lam, 0, cos lam]

/-- Angular velocity of the rear assembly. -/
noncomputable def omegaRear (phid psid : ℝ) : V3 := ![phid, 0, psid]

/-- Angular velocity of the front assembly. -/
noncomputable def omegaFront (lam phid psid deltad : ℝ) : V3 :=
  omegaRear phid psid + deltad • steerDir lam

/-- Velocity of a rear point. -/
noncomputable def velRear (phid psid : ℝ) (r : V3) : V3 := rotVel (omegaRear phid psid) 0 r

/-- Velocity of a front point. -/
noncomputable def velFront (w c lam phid psid deltad : ℝ) (r : V3) : V3 :=
  velRear phid psid r + rotVel (deltad • steerDir lam) ![w + c, 0, 0] r

/-- Kinetic energy of a bicycle whose rear and front assemblies consist of the
given bodies. -/
noncomputable def bicycleEnergy (rear front : List Body) (w c lam phid psid deltad : ℝ) : ℝ :=
  (rear.map fun b => b.energy (velRear phid psid b.r) (omegaRear phid psid)).sum +
  (front.map fun b => b.energy (velFront w c lam phid psid deltad b.r)
    (omegaFront lam phid psid deltad)).sum

end BP.Spec
