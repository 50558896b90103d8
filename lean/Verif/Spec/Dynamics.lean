import Verif.Spec.Rolling
import Mathlib.Data.Fintype.Basic
import Mathlib.Analysis.Calculus.Deriv.Basic

/-!
# The bodies of the bicycle with a rider who leans

The bicycle has five rigid bodies.  Each is a collection of particles that keep their places in the body.  The
directions and the coordinates of states are those of `Verif.Spec.Rolling`; `q9` (the ninth number of a state) is the
angle by which the rider leans, and the parameters have the names of `Mooreriderlean2012ParameterSet`.
-/

namespace BP.Spec

open Matrix

/-- The rear frame, the rear wheel, the front frame, the front wheel and the upper body of the rider. -/
inductive Part where
  | rearFrame
  | rearWheel
  | frontFrame
  | frontWheel
  | rider
  deriving DecidableEq

instance : Fintype Part :=
  ⟨{.rearFrame, .rearWheel, .frontFrame, .frontWheel, .rider}, fun p => by cases p <;> simp⟩

/-- Where a point of the rear frame is.  Its coordinates `v` in the frame are counted from the centre of the rear
wheel. -/
noncomputable def inRear (f : String → ℝ) (x : Fin 13 → ℝ) (v : Fin 3 → ℝ) : Fin 3 → ℝ :=
  onBicycle x (![0, 0, -f "rr"] + aboutY (x 4) v)

/-- Where a point of the front frame is.  Its coordinates are counted from the point of the steer axis that is next to
the centre of the rear wheel. -/
noncomputable def inFront (f : String → ℝ) (x : Fin 13 → ℝ) (v : Fin 3 → ℝ) : Fin 3 → ℝ :=
  inRear f x (![f "d1", 0, 0] + aboutZ (x 6) v)

/-- Where a point of a body is that has the coordinates `v` from the mass centre of the body.  The rider leans about an
axis in the rear frame that has the tilt `lam` and the distance `d4` from the centre of the rear wheel. -/
noncomputable def Part.place (f : String → ℝ) (lam : ℝ) (x : Fin 13 → ℝ) : Part → (Fin 3 → ℝ) → Fin 3 → ℝ
  | .rearFrame, v => inRear f x (![f "l1", 0, f "l2"] + v)
  | .rearWheel, v => inRear f x (aboutY (x 5) v)
  | .frontFrame, v => inFront f x (![f "d3" + f "l3", 0, f "d2" + f "l4"] + v)
  | .frontWheel, v => inFront f x (![f "d3", 0, f "d2"] + aboutY (x 7) v)
  | .rider, v => inRear f x (![-(f "d4" * Real.sin lam), 0, f "d4" * Real.cos lam] +
      aboutY (-lam) (aboutX (x 8) (![f "l5", 0, f "l6"] + v)))

/-- The mass and the moments of inertia of a body: `i11`, `i22`, `i33`, `i31`. -/
def Part.weighs (f : String → ℝ) : Part → ℝ × ℝ × ℝ × ℝ × ℝ
  | .rearFrame => (f "mc", f "ic11", f "ic22", f "ic33", f "ic31")
  | .rearWheel => (f "md", f "id11", f "id22", f "id11", 0)
  | .frontFrame => (f "me", f "ie11", f "ie22", f "ie33", f "ie31")
  | .frontWheel => (f "mf", f "if11", f "if22", f "if11", 0)
  | .rider => (f "mg", f "ig11", f "ig22", f "ig33", f "ig31")

/-- Particles with the masses `m` at the places `c`, counted from their mass centre, have the mass and the moments of
inertia that are given. -/
structure MadeOf {ι : Type} [Fintype ι] (m : ι → ℝ) (c : ι → Fin 3 → ℝ) (w : ℝ × ℝ × ℝ × ℝ × ℝ) : Prop where
  mass : ∑ i, m i = w.1
  centre : ∀ k, ∑ i, m i * c i k = 0
  i11 : ∑ i, m i * (c i 1 * c i 1 + c i 2 * c i 2) = w.2.1
  i22 : ∑ i, m i * (c i 0 * c i 0 + c i 2 * c i 2) = w.2.2.1
  i33 : ∑ i, m i * (c i 0 * c i 0 + c i 1 * c i 1) = w.2.2.2.1
  i31 : ∑ i, m i * (c i 0 * c i 2) = -w.2.2.2.2
  i12 : ∑ i, m i * (c i 0 * c i 1) = 0
  i23 : ∑ i, m i * (c i 1 * c i 2) = 0

/-- Both wheels of a bicycle roll at the time `t`: the points of the rims that touch the ground are at rest. -/
structure RollsAt (f : String → ℝ) (y : ℝ → Fin 13 → ℝ) (t : ℝ) : Prop where
  rear : ∀ φ, rearPoint (f "rr") (y t) φ = ![y t 0, y t 1, 0] → HasDerivAt (fun s => rearPoint (f "rr") (y s) φ) 0 t
  front : ∀ φ, Lowest (f "rr") (f "rf") (f "d1") (f "d2") (f "d3") (y t) φ →
    HasDerivAt (fun s => frontPoint (f "rr") (f "rf") (f "d1") (f "d2") (f "d3") (y s) φ) 0 t

/-- The motion `x` obeys d'Alembert's principle at the time `t` under the torques `T`.  Take any motion `y` that passes the
same place at the time `t` and whose wheels roll then.  The power that the accelerations of the particles need on the
velocities of `y` is the power of gravity and of the torques: the roll torque on the frame, the torque on the rear wheel,
the steer torque, and the torque on the rider together with the spring and the damper of the lean axis. -/
def Obeys (f : String → ℝ) (lam : ℝ) {ι : Part → Type} [∀ p, Fintype (ι p)] (m : ∀ p, ι p → ℝ)
    (c : ∀ p, ι p → Fin 3 → ℝ) (x : ℝ → Fin 13 → ℝ) (T : Fin 4 → ℝ) (t : ℝ) : Prop :=
  ∀ y : ℝ → Fin 13 → ℝ, DifferentiableAt ℝ y t → (∀ i : Fin 13, i.1 < 9 → y t i = x t i) → RollsAt f y t →
    ∑ p, ∑ i, m p i * (deriv (deriv fun s => p.place f lam (x s) (c p i)) t ⬝ᵥ
        deriv (fun s => p.place f lam (y s) (c p i)) t) =
      ∑ p, ∑ i, m p i * (f "g" * deriv (fun s => p.place f lam (y s) (c p i)) t 2) +
      (T 0 * deriv y t 3 + T 1 * deriv y t 5 + T 2 * deriv y t 6 +
        (T 3 - f "k9" * x t 8 - f "c9" * x t 12) * deriv y t 8)

/-- The kinetic energy of the particles, their potential energy, and the energy of the spring. -/
noncomputable def energy (f : String → ℝ) (lam : ℝ) {ι : Part → Type} [∀ p, Fintype (ι p)] (m : ∀ p, ι p → ℝ)
    (c : ∀ p, ι p → Fin 3 → ℝ) (x : ℝ → Fin 13 → ℝ) (t : ℝ) : ℝ :=
  ∑ p, ∑ i, m p i * (deriv (fun s => p.place f lam (x s) (c p i)) t ⬝ᵥ
    deriv (fun s => p.place f lam (x s) (c p i)) t) / 2 -
  ∑ p, ∑ i, m p i * (f "g" * p.place f lam (x t) (c p i) 2) + f "k9" * x t 8 ^ 2 / 2

end BP.Spec
