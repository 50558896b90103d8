import Mathlib.Data.Real.Basic
import Verif.Model.EvalLinear

/-!
# The matrices of the linearised bicycle with a leaning rider, in any arithmetic

The formulas are written once and used twice: for numbers, and for the expressions that are
compared with the cells of `eval_linear`.
-/

namespace BP.EL

/-- The arithmetic needed. -/
class Ops (α : Type) extends Add α, Sub α, Mul α, Div α, Neg α, Zero α, One α

instance : Ops E where
  add := .add
  sub := .sub
  mul := .mul
  div := .div
  neg := .neg
  zero := .n 0
  one := .n 1

noncomputable instance : Ops ℝ where

/-- The quantities the matrices depend on: the parameters of `eval_linear`, sine and cosine of
the pitch, and the rate of the rear wheel. -/
structure LP (α : Type) where
  (s c u6 : α)
  (c9 d1 d2 d3 d4 g ic11 ic31 ic33 id11 id22 ie11 ie31 ie33 if11 if22 ig11 ig31 ig33 k9 : α)
  (l1 l2 l3 l4 l5 l6 mc md me mf mg rf rr : α)

/-- In-plane mass moments about the rear contact point. -/
structure Mom (α : Type) where
  (m sx sz Jxx Jxz Jzz : α)

variable {α : Type} [Ops α]

/-- The moments of a body. -/
def Mom.of (m x z Ixx Ixz Izz : α) : Mom α :=
  ⟨m, m * x, m * z, Ixx + m * z * z, Ixz - m * x * z, Izz + m * x * x⟩

/-- The moments of two bodies together. -/
def Mom.plus (a b : Mom α) : Mom α :=
  ⟨a.m + b.m, a.sx + b.sx, a.sz + b.sz, a.Jxx + b.Jxx, a.Jxz + b.Jxz, a.Jzz + b.Jzz⟩

namespace LP

variable (P : LP α)

/-- wheelbase -/
def w : α := (P.d1 + P.d3) * P.c + P.d2 * P.s
/-- trail times the cosine of the steer axis tilt -/
def ct : α := P.rf * P.s - P.d3
/-- forward speed -/
def v : α := -(P.rr * P.u6)
/-- `(xx, xz, zz)` of an inertia given along and across the steer axis -/
def turnxx (a11 a31 a33 : α) : α := a11 * P.c * P.c + (a31 + a31) * P.c * P.s + a33 * P.s * P.s
def turnxz (a11 a31 a33 : α) : α := a31 * (P.c * P.c - P.s * P.s) + (a33 - a11) * P.s * P.c
def turnzz (a11 a31 a33 : α) : α := a11 * P.s * P.s - (a31 + a31) * P.c * P.s + a33 * P.c * P.c
def momD : Mom α := Mom.of P.md 0 (-P.rr) P.id11 0 P.id11
def xC : α := P.l1 * P.c + P.l2 * P.s
def zC : α := P.l2 * P.c - P.l1 * P.s - P.rr
def momC : Mom α := Mom.of P.mc P.xC P.zC (P.turnxx P.ic11 P.ic31 P.ic33) (P.turnxz P.ic11 P.ic31 P.ic33)
  (P.turnzz P.ic11 P.ic31 P.ic33)
def xE : α := P.w + P.l3 * P.c + P.l4 * P.s
def zE : α := P.l4 * P.c - P.l3 * P.s - P.rf
def momE : Mom α := Mom.of P.me P.xE P.zE (P.turnxx P.ie11 P.ie31 P.ie33) (P.turnxz P.ie11 P.ie31 P.ie33)
  (P.turnzz P.ie11 P.ie31 P.ie33)
def momF : Mom α := Mom.of P.mf P.w (-P.rf) P.if11 0 P.if11
def zG : α := P.d4 + P.l6 - P.rr
def momG : Mom α := Mom.of P.mg P.l5 P.zG P.ig11 P.ig31 P.ig33
/-- the front assembly -/
def momA : Mom α := P.momE.plus P.momF
/-- everything -/
def momT : Mom α := ((P.momD.plus P.momC).plus P.momG).plus P.momA

def mu : α := P.ct / P.w
def kap : α := P.c / P.w
def wc : α := P.w * P.c + P.ct
def lx : α := P.s * P.momA.Jxx + P.c * P.momA.Jxz + P.wc * P.momA.sz
def lz : α := P.s * P.momA.Jxz + P.c * P.momA.Jzz - P.wc * P.momA.sx
def ll : α := P.s * P.s * P.momA.Jxx + (P.s * P.c + P.s * P.c) * P.momA.Jxz + P.c * P.c * P.momA.Jzz +
  P.wc * P.wc * P.momA.m - (P.wc * P.c + P.wc * P.c) * P.momA.sx + (P.wc * P.s + P.wc * P.s) * P.momA.sz
def S : α := (P.momA.sx * P.c - P.wc * P.momA.m - P.momA.sz * P.s) + P.mu * P.momT.sx
/-- spin angular momentum of the wheels, reversed -/
def HR : α := -(P.id22 * P.u6)
def HF : α := -(P.if22 * (P.rr * P.u6) / P.rf)

/-- The mass matrix. -/
def mass : Fin 3 → Fin 3 → α
  | 0, 0 => P.momT.Jxx
  | 0, 1 => P.lx + P.mu * P.momT.Jxz
  | 0, 2 => P.ig11 + P.mg * P.l6 * P.zG
  | 1, 0 => P.lx + P.mu * P.momT.Jxz
  | 1, 1 => P.ll + (P.mu + P.mu) * P.lz + P.mu * P.mu * P.momT.Jzz
  | 1, 2 => P.mu * (P.ig31 - P.mg * P.l5 * P.l6)
  | 2, 0 => P.ig11 + P.mg * P.l6 * P.zG
  | 2, 1 => P.mu * (P.ig31 - P.mg * P.l5 * P.l6)
  | 2, 2 => P.ig11 + P.mg * P.l6 * P.l6

/-- The matrix of the rates. -/
def damp : Fin 3 → Fin 3 → α
  | 0, 0 => 0
  | 0, 1 => P.mu * (P.HR + P.HF) + P.HF * P.c + P.v * (P.kap * P.momT.Jxz - P.mu * P.momT.sz)
  | 0, 2 => 0
  | 1, 0 => -(P.mu * (P.HR + P.HF) + P.HF * P.c)
  | 1, 1 => P.v * (P.kap * P.lz + P.mu * (P.S + P.kap * P.momT.Jzz))
  | 1, 2 => 0
  | 2, 0 => 0
  | 2, 1 => P.v * (P.kap * (P.ig31 - P.mg * P.l5 * P.l6) - P.mu * (P.mg * P.l6))
  | 2, 2 => P.c9

/-- The matrix of the angles. -/
def stiff : Fin 3 → Fin 3 → α
  | 0, 0 => P.g * P.momT.sz
  | 0, 1 => P.v * P.kap * (P.HR + P.HF - P.v * P.momT.sz) - P.g * P.S
  | 0, 2 => P.g * (P.mg * P.l6)
  | 1, 0 => -(P.g * P.S)
  | 1, 1 => P.v * P.kap * (P.v * P.S + P.HF * P.s) - P.g * P.S * P.s
  | 1, 2 => 0
  | 2, 0 => P.g * (P.mg * P.l6)
  | 2, 1 => -(P.v * P.v * P.kap * (P.mg * P.l6))
  | 2, 2 => P.g * (P.mg * P.l6) + P.k9

/-- The inertia against which the rear wheel is driven. -/
def drive : α := P.id22 + P.rr * P.rr * (P.mc + P.md + P.me + P.mf + P.mg) + P.if22 * (P.rr / P.rf) * (P.rr / P.rf)

end LP

/-- The parameters as cells. -/
def cellLP : LP E where
  s := .sin lam
  c := .cos lam
  u6 := u6
  c9 := c9
  d1 := d1
  d2 := d2
  d3 := d3
  d4 := d4
  g := g
  ic11 := ic11
  ic31 := ic31
  ic33 := ic33
  id11 := id11
  id22 := id22
  ie11 := ie11
  ie31 := ie31
  ie33 := ie33
  if11 := if11
  if22 := if22
  ig11 := ig11
  ig31 := ig31
  ig33 := ig33
  k9 := k9
  l1 := l1
  l2 := l2
  l3 := l3
  l4 := l4
  l5 := l5
  l6 := l6
  mc := mc
  md := md
  me := me
  mf := mf
  mg := mg
  rf := rf
  rr := rr

/-- The determinant of a matrix of cells. -/
def det3 (a : Fin 3 → Fin 3 → α) : α :=
  a 0 0 * (a 1 1 * a 2 2 - a 1 2 * a 2 1) - a 0 1 * (a 1 0 * a 2 2 - a 1 2 * a 2 0) +
    a 0 2 * (a 1 0 * a 2 1 - a 1 1 * a 2 0)

end BP.EL
