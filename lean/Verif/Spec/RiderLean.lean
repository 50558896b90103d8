import Verif.Spec.NewtonEuler

/-!
# Specification: a bicycle with a leaning rider

Textbook mechanics, independent of the code.  In addition to the bicycle of
Spec/NewtonEuler.lean there is a rider who turns by the small angle `θ` (lean) relative to the
rear frame, about a horizontal axis in the symmetry plane, held by a spring `k9` and a damper
`c9`, and applies the torque `Tθ` between the frame and himself.
-/

namespace BP.Spec

open Matrix Real

/-- The parameters of Moore's rider lean model, with the names of the parameter sets. -/
structure LeanPar where
  (c9 d1 d2 d3 d4 g ic11 ic22 ic31 ic33 id11 id22 ie11 ie22 ie31 ie33 if11 if22 : ℝ)
  (ig11 ig22 ig31 ig33 k9 l1 l2 l3 l4 l5 l6 mc md me mf mg rf rr : ℝ)

/-- The parameters by name. -/
def LeanPar.of (f : String → ℝ) : LeanPar :=
  ⟨f "c9", f "d1", f "d2", f "d3", f "d4", f "g", f "ic11", f "ic22", f "ic31", f "ic33", f "id11",
   f "id22", f "ie11", f "ie22", f "ie31", f "ie33", f "if11", f "if22", f "ig11", f "ig22",
   f "ig31", f "ig33", f "k9", f "l1", f "l2", f "l3", f "l4", f "l5", f "l6", f "mc", f "md", f "me",
   f "mf", f "mg", f "rf", f "rr"⟩

/-- Direction in the symmetry plane at right angles to the steer axis, forward. -/
noncomputable def acrossDir (lam : ℝ) : V3 := ![cos lam, 0, -sin lam]

/-- An inertia tensor given by its components along `acrossDir`, `yHat` and `steerDir`. -/
noncomputable def frameTensor (lam a11 a22 a31 a33 : ℝ) : Matrix (Fin 3) (Fin 3) ℝ :=
  (Matrix.of ![acrossDir lam, yHat, steerDir lam])ᵀ * !![a11, 0, a31; 0, a22, 0; a31, 0, a33] *
    Matrix.of ![acrossDir lam, yHat, steerDir lam]

namespace LeanPar

variable (P : LeanPar) (lam : ℝ)

/-- Centre of the rear wheel; the origin is the rear contact point. -/
def rearCentre : V3 := ![0, 0, -P.rr]

/-- The point of the steer axis nearest to the rear wheel centre. -/
noncomputable def axisPoint : V3 := P.rearCentre + P.d1 • acrossDir lam

/-- Centre of the front wheel. -/
noncomputable def frontCentre : V3 := P.axisPoint lam + P.d2 • steerDir lam + P.d3 • acrossDir lam

/-- With the tilt `lam` of the steer axis the front wheel stands on the ground, the front contact
point is `(w, 0, 0)`, and the steer axis meets the ground at `(w + c, 0, 0)`. -/
structure Stands (w c : ℝ) : Prop where
  front : P.frontCentre lam = ![w, 0, -P.rf]
  axis : ∃ s : ℝ, P.axisPoint lam + s • steerDir lam = ![w + c, 0, 0]

/-- The rear frame. -/
noncomputable def rearFrame : Body :=
  ⟨P.mc, P.rearCentre + P.l1 • acrossDir lam + P.l2 • steerDir lam, frameTensor lam P.ic11 P.ic22 P.ic31 P.ic33⟩

/-- The front frame. -/
noncomputable def frontFrame : Body :=
  ⟨P.me, P.frontCentre lam + P.l3 • acrossDir lam + P.l4 • steerDir lam,
    frameTensor lam P.ie11 P.ie22 P.ie31 P.ie33⟩

/-- Rear wheel, spinning with `Ω`, and rear frame. -/
noncomputable def rearBodies (Ω : ℝ) : List SpinBody :=
  [⟨⟨P.md, P.rearCentre, !![P.id11, 0, 0; 0, P.id22, 0; 0, 0, P.id11]⟩, Ω⟩, ⟨P.rearFrame lam, 0⟩]

/-- Front frame and front wheel; both wheels roll with the same speed. -/
noncomputable def frontBodies (Ω : ℝ) : List SpinBody :=
  [⟨P.frontFrame lam, 0⟩,
   ⟨⟨P.mf, P.frontCentre lam, !![P.if11, 0, 0; 0, P.if22, 0; 0, 0, P.if11]⟩, P.rr * Ω / P.rf⟩]

/-- A point of the rider's axis. -/
def hinge : V3 := P.rearCentre + ![0, 0, P.d4]

/-- The rider. -/
def rider : SpinBody :=
  ⟨⟨P.mg, P.hinge + ![P.l5, 0, P.l6], !![P.ig11, 0, P.ig31; 0, P.ig22, 0; P.ig31, 0, P.ig33]⟩, 0⟩

/-- Forward speed for the rear wheel rate `Ω`. -/
def speed (Ω : ℝ) : ℝ := -P.rr * Ω

/-- The inertia the rear wheel torque works against: everything moves forward, both wheels turn. -/
noncomputable def driveInertia : ℝ :=
  P.id22 + (P.mc + P.md + P.me + P.mf + P.mg) * P.rr ^ 2 + P.if22 * (P.rr / P.rf) ^ 2

end LeanPar

namespace LeanPar

/-- Kinetic energy of the lateral motion with the rates `φ'` of roll, `ψ'` of yaw, `δ'` of steer,
`θ'` of lean. -/
noncomputable def energy (P : LeanPar) (lam w c φ' ψ' δ' θ' : ℝ) : ℝ :=
  ((P.rearBodies lam 0).map fun b => b.body.energy (velRear φ' ψ' b.body.r) (omegaRear φ' ψ')).sum +
  ((P.frontBodies lam 0).map fun b => b.body.energy (velFront w c lam φ' ψ' δ' b.body.r)
    (omegaFront lam φ' ψ' δ')).sum +
  P.rider.body.energy (velRear φ' ψ' P.rider.body.r + rotVel ![θ', 0, 0] P.hinge P.rider.body.r)
    (omegaRear (φ' + θ') ψ')

/-- Every lateral motion without side slip has kinetic energy. -/
def Massive (P : LeanPar) (lam w c : ℝ) : Prop :=
  ∀ φ' ψ' δ' θ' : ℝ, w * ψ' = c * cos lam * δ' → (φ' ≠ 0 ∨ δ' ≠ 0 ∨ θ' ≠ 0) →
    0 < P.energy lam w c φ' ψ' δ' θ'

/-- A physically possible bicycle: no mass and no moment of inertia is negative, and the rear
frame, the front frame and the rider have moments of inertia about all axes of the symmetry plane. -/
structure Physical (P : LeanPar) : Prop where
  mc : 0 ≤ P.mc
  md : 0 ≤ P.md
  me : 0 ≤ P.me
  mf : 0 ≤ P.mf
  mg : 0 ≤ P.mg
  id11 : 0 ≤ P.id11
  if11 : 0 ≤ P.if11
  id22 : 0 < P.id22
  if22 : 0 ≤ P.if22
  ic : ∀ a b : ℝ, a ≠ 0 ∨ b ≠ 0 → 0 < P.ic11 * a ^ 2 + 2 * P.ic31 * a * b + P.ic33 * b ^ 2
  ie : ∀ a b : ℝ, a ≠ 0 ∨ b ≠ 0 → 0 < P.ie11 * a ^ 2 + 2 * P.ie31 * a * b + P.ie33 * b ^ 2
  ig : ∀ a b : ℝ, a ≠ 0 ∨ b ≠ 0 → 0 < P.ig11 * a ^ 2 + 2 * P.ig31 * a * b + P.ig33 * b ^ 2

end LeanPar

/-- Lateral position (velocity, acceleration) of a point of the rider, whose axis passes
through `h`. -/
noncomputable def lateralRider (h : V3) (y φ ψ θ : ℝ) (r : V3) : ℝ :=
  lateralRear y φ ψ r + rotVel ![θ, 0, 0] h r 1

/-- Instantaneous values of a motion: position, rates, accelerations. -/
structure LeanInstant extends Instant where
  (θ θ' θ'' : ℝ)

/-- The balances of moments, for some lateral force `F` and vertical force `N` of the ground
on the front wheel, at the front contact point `Q = (w, 0, 0)`:
* pitch (order zero): the weights and `N` have no moment about the lateral axis through the
  rear contact point;
* roll, yaw: everything about the x and the z axis through the rear contact point;
* steer: the front assembly about the steer axis;
* lean: the rider about his axis, with the torque `Tθ` and those of spring and damper, and the
  lateral component, for the leaned rider, of his weight. -/
def LeanMomentBalance (rear front : List SpinBody) (rider : SpinBody) (h : V3)
    (w c lam g k9 c9 Tφ Tδ Tθ : ℝ) (s : LeanInstant) : Prop :=
  let Q : V3 := ![w, 0, 0]
  let o : V3 := ![w + c, 0, 0]
  let ωr := omegaRear s.φ' s.ψ'
  let ωf := omegaFront lam s.φ' s.ψ' s.δ'
  let ωg := omegaRear (s.φ' + s.θ') s.ψ'
  let αr := omegaRear s.φ'' s.ψ''
  let αf := omegaFront lam s.φ'' s.ψ'' s.δ''
  let αg := omegaRear (s.φ'' + s.θ'') s.ψ''
  let momRear := fun (b : SpinBody) =>
    b.inertiaMoment 0 (lateralRear s.y'' s.φ'' s.ψ'' b.body.r) ωr αr
  let momFront := fun (pt : V3) (b : SpinBody) =>
    b.inertiaMoment pt (lateralFront w c lam s.y'' s.φ'' s.ψ'' s.δ'' b.body.r) ωf αf
  let momRider := fun (pt : V3) =>
    rider.inertiaMoment pt (lateralRider h s.y'' s.φ'' s.ψ'' s.θ'' rider.body.r) ωg αg
  let dispRear := fun (b : SpinBody) => lateralRear 0 s.φ s.ψ b.body.r
  let dispFront := fun (r : V3) => lateralFront w c lam 0 s.φ s.ψ s.δ r
  let dispRider := lateralRider h 0 s.φ s.ψ s.θ rider.body.r
  let lean := omegaFront lam s.φ s.ψ s.δ 0
  ∃ F N : ℝ,
    w * N + ((rear ++ front ++ [rider]).map fun b => b.body.r 0 * (b.body.m * g)).sum = 0 ∧
    (rear.map fun b => momRear b 0).sum + (front.map fun b => momFront 0 b 0).sum + momRider 0 0 =
      Tφ + (rear.map fun b => dispRear b * (b.body.m * g)).sum +
        (front.map fun b => dispFront b.body.r * (b.body.m * g)).sum +
        dispRider * (rider.body.m * g) + dispFront Q * N ∧
    (rear.map fun b => momRear b 2).sum + (front.map fun b => momFront 0 b 2).sum + momRider 0 2 =
      (Q ⨯₃ (F • yHat)) 2 ∧
    (front.map fun b => steerDir lam ⬝ᵥ momFront o b).sum =
      Tδ + steerDir lam ⬝ᵥ ((Q - o) ⨯₃ (F • yHat)) +
        (front.map fun b => steerDir lam ⬝ᵥ ((b.body.r - o) ⨯₃ ((b.body.m * g * lean) • yHat))).sum +
        steerDir lam ⬝ᵥ ((Q - o) ⨯₃ ((N * lean) • yHat)) ∧
    momRider h 0 =
      Tθ - k9 * s.θ - c9 * s.θ' +
        ((rider.body.r - h) ⨯₃ ((rider.body.m * g * (s.φ + s.θ)) • yHat)) 0

/-- A small motion about upright riding with the rear wheel rate `Ω`.  The state `x` holds the
forward and lateral position of the rear contact point, yaw, roll, pitch, rear wheel angle,
steer, front wheel angle, lean, and the rates of roll, rear wheel, steer and lean; `T` holds the
torques on roll, rear wheel, steer and lean. -/
structure LeanMotion (P : LeanPar) (lam w c Ω : ℝ) (x : ℝ → Fin 13 → ℝ) (T : ℝ → Fin 4 → ℝ) : Prop where
  /-- the wheels roll without longitudinal slip -/
  forward : ∀ t, HasDerivAt (fun s => x s 0) (P.speed (x t 10)) t
  front : ∀ t, HasDerivAt (fun s => x s 7) (-(P.speed (x t 10)) / P.rf) t
  /-- the pitch does not change, to first order -/
  pitch : ∀ t, HasDerivAt (fun s => x s 4) 0 t
  /-- rates are rates -/
  rates : ∀ t, HasDerivAt (fun s => x s 3) (x t 9) t ∧ HasDerivAt (fun s => x s 5) (x t 10) t ∧
    HasDerivAt (fun s => x s 6) (x t 11) t ∧ HasDerivAt (fun s => x s 8) (x t 12) t
  /-- the wheels roll without side slip -/
  rolls : RollsWithoutSlip (P.speed Ω) w c lam (fun s => x s 1) (fun s => x s 3) (fun s => x s 2) (fun s => x s 6)
  /-- the torque on the rear wheel accelerates the bicycle -/
  drive : ∀ t, HasDerivAt (fun s => P.driveInertia * x s 10) (T t 1) t
  /-- the moments are balanced -/
  balance : ∃ ψ' ψ'' φ'' δ'' θ'' : ℝ → ℝ,
    (∀ t, HasDerivAt (fun s => x s 2) (ψ' t) t) ∧ (∀ t, HasDerivAt ψ' (ψ'' t) t) ∧
    (∀ t, HasDerivAt (fun s => x s 9) (φ'' t) t) ∧ (∀ t, HasDerivAt (fun s => x s 11) (δ'' t) t) ∧
    (∀ t, HasDerivAt (fun s => x s 12) (θ'' t) t) ∧
    ∀ t, LeanMomentBalance (P.rearBodies lam Ω) (P.frontBodies lam Ω) P.rider P.hinge w c lam P.g P.k9 P.c9
      (T t 0) (T t 2) (T t 3)
      { φ := x t 3, ψ := x t 2, δ := x t 6, φ' := x t 9, ψ' := ψ' t, δ' := x t 11,
        y'' := P.speed Ω * ψ' t, φ'' := φ'' t, ψ'' := ψ'' t, δ'' := δ'' t,
        θ := x t 8, θ' := x t 12, θ'' := θ'' t }

end BP.Spec
