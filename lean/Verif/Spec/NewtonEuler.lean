import Mathlib.Analysis.Calculus.Deriv.Basic
import Verif.Spec.RigidBody

/-!
# Specification: the linearised Newton-Euler equations of a bicycle

Textbook mechanics, independent of the code.  A bicycle rolls with the constant forward
speed `v`.  Its rear contact point is displaced sideways by `y`, the rear assembly is turned
by the small angles `φ` (roll, about x) and `ψ` (yaw, about z), the front assembly in
addition by the small steer angle `δ` about the steer axis.  All quantities are of first
order in these; gravity `g` points along +z (down).
-/

namespace BP.Spec

open Matrix Real

/-- Unit vector to the right. -/
def yHat : V3 := ![0, 1, 0]

/-- A body together with its spin rate about its lateral axis (rolling wheels). -/
structure SpinBody where
  body : Body
  spin : ℝ

/-- Rate of change of the central angular momentum of a body with angular velocity `ω`
(without the spin) and angular acceleration `α`: the spin angular momentum is carried
along by `ω`. -/
noncomputable def SpinBody.angularRate (b : SpinBody) (ω α : V3) : V3 :=
  b.body.I *ᵥ α + ω ⨯₃ (b.body.I *ᵥ (b.spin • yHat))

/-- Moment about the point `o` needed to give the body the lateral acceleration `a` of its
mass centre and its angular acceleration. -/
noncomputable def SpinBody.inertiaMoment (b : SpinBody) (o : V3) (a : ℝ) (ω α : V3) : V3 :=
  (b.body.r - o) ⨯₃ ((b.body.m * a) • yHat) + b.angularRate ω α

/-- Lateral position (velocity, acceleration) of a rear point, from the lateral position
(velocity, acceleration) of the contact point and the angles (rates, accelerations). -/
noncomputable def lateralRear (y φ ψ : ℝ) (r : V3) : ℝ := y + velRear φ ψ r 1

/-- The same for a front point. -/
noncomputable def lateralFront (w c lam y φ ψ δ : ℝ) (r : V3) : ℝ := y + velFront w c lam φ ψ δ r 1

/-- Rolling without side slip, at every time: the rear contact point moves in the direction
of the rear wheel (heading `ψ`), the front contact point `(w, 0, 0)` in the direction of the
front wheel (heading `ψ + δ cos λ`). -/
def RollsWithoutSlip (v w c lam : ℝ) (y φ ψ δ : ℝ → ℝ) : Prop :=
  (∀ t, HasDerivAt y (v * ψ t) t) ∧
  (∀ t, HasDerivAt (fun s => lateralFront w c lam (y s) (φ s) (ψ s) (δ s) ![w, 0, 0])
    (v * omegaFront lam (φ t) (ψ t) (δ t) 2) t)

/-- Instantaneous values of a motion: position, rates, accelerations. -/
structure Instant where
  (φ ψ δ : ℝ)
  (φ' ψ' δ' : ℝ)
  (y'' φ'' ψ'' δ'' : ℝ)

/-- The balances of moments, for some lateral force `F` and vertical force `N` of the ground
on the front wheel, at the front contact point `Q = (w, 0, 0)`:
* pitch (order zero): the weights and `N` have no moment about the lateral axis through the
  rear contact point;
* roll: the whole bicycle about the x axis through the rear contact point, with the external
  roll torque `Tφ`, the weights and `N` acting at their lateral displacements;
* yaw: the whole bicycle about the z axis through the rear contact point;
* steer: the front assembly about the steer axis, with the steer torque `Tδ`, the ground
  force `F`, and the lateral components, in the leaned front assembly, of the weights
  and of `N`. -/
def MomentBalance (rear front : List SpinBody) (w c lam g Tφ Tδ : ℝ) (s : Instant) : Prop :=
  let Q : V3 := ![w, 0, 0]
  let o : V3 := ![w + c, 0, 0]
  let ωr := omegaRear s.φ' s.ψ'
  let ωf := omegaFront lam s.φ' s.ψ' s.δ'
  let αr := omegaRear s.φ'' s.ψ''
  let αf := omegaFront lam s.φ'' s.ψ'' s.δ''
  let momRear := fun (b : SpinBody) =>
    b.inertiaMoment 0 (lateralRear s.y'' s.φ'' s.ψ'' b.body.r) ωr αr
  let momFront := fun (pt : V3) (b : SpinBody) =>
    b.inertiaMoment pt (lateralFront w c lam s.y'' s.φ'' s.ψ'' s.δ'' b.body.r) ωf αf
  let dispRear := fun (b : SpinBody) => lateralRear 0 s.φ s.ψ b.body.r
  let dispFront := fun (r : V3) => lateralFront w c lam 0 s.φ s.ψ s.δ r
  let lean := omegaFront lam s.φ s.ψ s.δ 0
  ∃ F N : ℝ,
    w * N + ((rear ++ front).map fun b => b.body.r 0 * (b.body.m * g)).sum = 0 ∧
    (rear.map fun b => momRear b 0).sum + (front.map fun b => momFront 0 b 0).sum =
      Tφ + (rear.map fun b => dispRear b * (b.body.m * g)).sum +
        (front.map fun b => dispFront b.body.r * (b.body.m * g)).sum + dispFront Q * N ∧
    (rear.map fun b => momRear b 2).sum + (front.map fun b => momFront 0 b 2).sum =
      (Q ⨯₃ (F • yHat)) 2 ∧
    (front.map fun b => steerDir lam ⬝ᵥ momFront o b).sum =
      Tδ + steerDir lam ⬝ᵥ ((Q - o) ⨯₃ (F • yHat)) +
        (front.map fun b => steerDir lam ⬝ᵥ ((b.body.r - o) ⨯₃ ((b.body.m * g * lean) • yHat))).sum +
        steerDir lam ⬝ᵥ ((Q - o) ⨯₃ ((N * lean) • yHat))

end BP.Spec
