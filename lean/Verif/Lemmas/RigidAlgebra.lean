import Verif.Lemmas.Invariance

/-!
# Rigid bodies that are connected by joints: velocities and accelerations in the frames of the bodies

The same recursion is used for numbers and for polynomials, so the operations are arguments.
-/

namespace BP.EL

/-- Operations. -/
structure FieldOps (F : Type) where
  zero : F
  one : F
  add : F → F → F
  mul : F → F → F
  neg : F → F

/-- Vectors. -/
structure Tri (F : Type) where
  x : F
  y : F
  z : F

/-- The motion of a frame, in its own coordinates: the velocity of its origin, the angular velocity, their
derivatives, and the direction that points down. -/
structure Fr (F : Type) where
  v : Tri F
  w : Tri F
  vd : Tri F
  wd : Tri F
  dn : Tri F

/-- The axes. -/
inductive Axis where
  | X
  | Y
  | Z

section

variable {F : Type} (o : FieldOps F)

def FieldOps.sub (a b : F) : F := o.add a (o.neg b)

def zeroV : Tri F := ⟨o.zero, o.zero, o.zero⟩

def addV (a b : Tri F) : Tri F := ⟨o.add a.x b.x, o.add a.y b.y, o.add a.z b.z⟩

def scaleV (k : F) (a : Tri F) : Tri F := ⟨o.mul k a.x, o.mul k a.y, o.mul k a.z⟩

def crossV (a b : Tri F) : Tri F :=
  ⟨o.sub (o.mul a.y b.z) (o.mul a.z b.y), o.sub (o.mul a.z b.x) (o.mul a.x b.z),
    o.sub (o.mul a.x b.y) (o.mul a.y b.x)⟩

def dotV (a b : Tri F) : F := o.add (o.add (o.mul a.x b.x) (o.mul a.y b.y)) (o.mul a.z b.z)

/-- The coordinates in a frame that is turned about an axis. -/
def unturn (ax : Axis) (c s : F) (a : Tri F) : Tri F :=
  match ax with
  | .X => ⟨a.x, o.add (o.mul c a.y) (o.mul s a.z), o.sub (o.mul c a.z) (o.mul s a.y)⟩
  | .Y => ⟨o.sub (o.mul c a.x) (o.mul s a.z), a.y, o.add (o.mul s a.x) (o.mul c a.z)⟩
  | .Z => ⟨o.add (o.mul c a.x) (o.mul s a.y), o.sub (o.mul c a.y) (o.mul s a.x), a.z⟩

/-- Only the coordinate along the axis. -/
def along (ax : Axis) (k : F) : Tri F :=
  match ax with
  | .X => ⟨k, o.zero, o.zero⟩
  | .Y => ⟨o.zero, k, o.zero⟩
  | .Z => ⟨o.zero, o.zero, k⟩

/-- A frame that is connected to another one by a joint, at `d` in the coordinates of the other one; the cosine and
the sine of the angle of the joint, and the derivatives of the angle. -/
def jointOf (f : Fr F) (d : Tri F) (ax : Axis) (c s u a : F) : Fr F where
  v := unturn o ax c s (addV o f.v (crossV o f.w d))
  w := addV o (unturn o ax c s f.w) (along o ax u)
  vd := addV o (unturn o ax c s (addV o f.vd (crossV o f.wd d)))
    (crossV o (unturn o ax c s (addV o f.v (crossV o f.w d))) (along o ax u))
  wd := addV o (addV o (unturn o ax c s f.wd) (along o ax a)) (crossV o (unturn o ax c s f.w) (along o ax u))
  dn := unturn o ax c s f.dn

/-- A frame that moves with another one, with another origin. -/
def shiftOf (f : Fr F) (d : Tri F) : Fr F where
  v := addV o f.v (crossV o f.w d)
  w := f.w
  vd := addV o f.vd (crossV o f.wd d)
  wd := f.wd
  dn := f.dn

/-- The product of a tensor of inertia and a vector. -/
def tensor (i11 i22 i33 i31 : F) (a : Tri F) : Tri F :=
  ⟨o.add (o.mul i11 a.x) (o.mul i31 a.z), o.mul i22 a.y, o.add (o.mul i31 a.x) (o.mul i33 a.z)⟩

/-- The power of the forces that accelerate a body, for another motion `g` of the body. -/
def inertial (mass i11 i22 i33 i31 : F) (f g : Fr F) : F :=
  o.add (o.mul mass (dotV o (addV o f.vd (crossV o f.w f.v)) g.v))
    (dotV o (addV o (tensor o i11 i22 i33 i31 f.wd) (crossV o f.w (tensor o i11 i22 i33 i31 f.w))) g.w)

/-- The velocity down. -/
def sinking (g : Fr F) : F := dotV o g.dn g.v

/-- Cosines and sines of the angles, and lengths. -/
structure Conf (F : Type) where
  c3 : F
  s3 : F
  c4 : F
  s4 : F
  c5 : F
  s5 : F
  c6 : F
  s6 : F
  c7 : F
  s7 : F
  c8 : F
  s8 : F
  c9 : F
  s9 : F
  cl : F
  sl : F
  rr : F
  d1 : F
  d2 : F
  d3 : F
  d4 : F

/-- Nine numbers. -/
structure Nine (F : Type) where
  n1 : F
  n2 : F
  n3 : F
  n4 : F
  n5 : F
  n6 : F
  n7 : F
  n8 : F
  n9 : F

variable (k : Conf F) (u a : Nine F)

/-- The frames of the bicycle: the ground, moving with the contact point. -/
def frN : Fr F := ⟨⟨u.n1, u.n2, o.zero⟩, zeroV o, ⟨a.n1, a.n2, o.zero⟩, zeroV o, ⟨o.zero, o.zero, o.one⟩⟩

/-- The places of the joints. -/
def offC : Tri F := ⟨o.zero, o.zero, o.neg k.rr⟩

def offE : Tri F := ⟨k.d1, o.zero, o.zero⟩

def offF : Tri F := ⟨k.d3, o.zero, k.d2⟩

def offH : Tri F := ⟨o.neg (o.mul k.d4 k.sl), o.zero, o.mul k.d4 k.cl⟩

/-- From each frame to the next one. -/
def toB (f : Fr F) : Fr F := jointOf o f (zeroV o) .Z k.c3 k.s3 u.n3 a.n3

def toA (f : Fr F) : Fr F := jointOf o f (zeroV o) .X k.c4 k.s4 u.n4 a.n4

def toC (f : Fr F) : Fr F := jointOf o f (offC o k) .Y k.c5 k.s5 u.n5 a.n5

def toD (f : Fr F) : Fr F := jointOf o f (zeroV o) .Y k.c6 k.s6 u.n6 a.n6

def toE (f : Fr F) : Fr F := jointOf o f (offE o k) .Z k.c7 k.s7 u.n7 a.n7

def toF (f : Fr F) : Fr F := jointOf o f (offF o k) .Y k.c8 k.s8 u.n8 a.n8

def toH (f : Fr F) : Fr F := jointOf o f (offH o k) .Y k.cl (o.neg k.sl) o.zero o.zero

def toG (f : Fr F) : Fr F := jointOf o f (zeroV o) .X k.c9 k.s9 u.n9 a.n9

/-- Masses, mass centres and moments of inertia. -/
structure Heavy (F : Type) where
  l1 : F
  l2 : F
  l3 : F
  l4 : F
  l5 : F
  l6 : F
  mc : F
  md : F
  me : F
  mf : F
  mg : F
  ic11 : F
  ic22 : F
  ic33 : F
  ic31 : F
  id11 : F
  id22 : F
  ie11 : F
  ie22 : F
  ie33 : F
  ie31 : F
  if11 : F
  if22 : F
  ig11 : F
  ig22 : F
  ig33 : F
  ig31 : F

/-- The frames of the five bodies. -/
structure Five (F : Type) where
  fC : Fr F
  fD : Fr F
  fE : Fr F
  fF : Fr F
  fG : Fr F

variable (h : Heavy F)

/-- The same with the origins in the mass centres. -/
def centred (f : Five F) : Five F where
  fC := shiftOf o f.fC ⟨h.l1, o.zero, h.l2⟩
  fD := f.fD
  fE := shiftOf o f.fE ⟨o.add k.d3 h.l3, o.zero, o.add k.d2 h.l4⟩
  fF := f.fF
  fG := shiftOf o f.fG ⟨h.l5, o.zero, h.l6⟩

/-- The powers for two motions whose frames have their origins in the mass centres. -/
def inertia5 (f g : Five F) : F :=
  o.add (o.add (o.add (o.add (inertial o h.mc h.ic11 h.ic22 h.ic33 h.ic31 f.fC g.fC)
    (inertial o h.md h.id11 h.id22 h.id11 o.zero f.fD g.fD)) (inertial o h.me h.ie11 h.ie22 h.ie33 h.ie31 f.fE g.fE))
    (inertial o h.mf h.if11 h.if22 h.if11 o.zero f.fF g.fF)) (inertial o h.mg h.ig11 h.ig22 h.ig33 h.ig31 f.fG g.fG)

def weight5 (g : Five F) : F :=
  o.add (o.add (o.add (o.add (o.mul h.mc (sinking o g.fC)) (o.mul h.md (sinking o g.fD)))
    (o.mul h.me (sinking o g.fE))) (o.mul h.mf (sinking o g.fF))) (o.mul h.mg (sinking o g.fG))

end

/-! ## Numbers -/

/-- Numbers. -/
noncomputable def reals : FieldOps ℝ := ⟨0, 1, (· + ·), (· * ·), fun a => -a⟩

/-! ## From polynomials to numbers -/

section

variable {F G : Type}

def Tri.map (e : F → G) (a : Tri F) : Tri G := ⟨e a.x, e a.y, e a.z⟩

def Fr.map (e : F → G) (f : Fr F) : Fr G := ⟨f.v.map e, f.w.map e, f.vd.map e, f.wd.map e, f.dn.map e⟩

def Conf.map (e : F → G) (k : Conf F) : Conf G :=
  ⟨e k.c3, e k.s3, e k.c4, e k.s4, e k.c5, e k.s5, e k.c6, e k.s6, e k.c7, e k.s7, e k.c8, e k.s8, e k.c9, e k.s9,
    e k.cl, e k.sl, e k.rr, e k.d1, e k.d2, e k.d3, e k.d4⟩

def Nine.map (e : F → G) (k : Nine F) : Nine G :=
  ⟨e k.n1, e k.n2, e k.n3, e k.n4, e k.n5, e k.n6, e k.n7, e k.n8, e k.n9⟩

def Heavy.map (e : F → G) (h : Heavy F) : Heavy G :=
  ⟨e h.l1, e h.l2, e h.l3, e h.l4, e h.l5, e h.l6, e h.mc, e h.md, e h.me, e h.mf, e h.mg, e h.ic11, e h.ic22, e h.ic33,
    e h.ic31, e h.id11, e h.id22, e h.ie11, e h.ie22, e h.ie33, e h.ie31, e h.if11, e h.if22, e h.ig11, e h.ig22,
    e h.ig33, e h.ig31⟩

def Five.map (e : F → G) (f : Five F) : Five G := ⟨f.fC.map e, f.fD.map e, f.fE.map e, f.fF.map e, f.fG.map e⟩

/-- Values that fit the operations. -/
structure Respects (o : FieldOps F) (e : F → ℝ) : Prop where
  zero : e o.zero = 0
  one : e o.one = 1
  add : ∀ a b, e (o.add a b) = e a + e b
  mul : ∀ a b, e (o.mul a b) = e a * e b
  neg : ∀ a, e (o.neg a) = -e a

variable {o : FieldOps F} {e : F → ℝ} (he : Respects o e)

include he

theorem map_joint (f : Fr F) (d : Tri F) (ax : Axis) (c s u a : F) : (jointOf o f d ax c s u a).map e =
    jointOf reals (f.map e) (d.map e) ax (e c) (e s) (e u) (e a) := by
  cases ax <;> simp [jointOf, Fr.map, Tri.map, unturn, along, addV, crossV, FieldOps.sub, reals, he.add, he.mul, he.neg,
    he.zero]

theorem map_zeroV : (zeroV o).map e = zeroV reals := by simp [zeroV, Tri.map, he.zero, reals]

theorem map_frN (u a : Nine F) : (frN o u a).map e = frN reals (u.map e) (a.map e) := by
  simp [frN, Fr.map, Tri.map, Nine.map, he.zero, he.one, reals, zeroV]

variable (k : Conf F) (u a : Nine F) (f : Fr F)

theorem map_toB : (toB o k u a f).map e = toB reals (k.map e) (u.map e) (a.map e) (f.map e) := by
  rw [toB, map_joint he, map_zeroV he]; rfl

theorem map_toA : (toA o k u a f).map e = toA reals (k.map e) (u.map e) (a.map e) (f.map e) := by
  rw [toA, map_joint he, map_zeroV he]; rfl

theorem map_toC : (toC o k u a f).map e = toC reals (k.map e) (u.map e) (a.map e) (f.map e) := by
  rw [toC, map_joint he, show (offC o k).map e = offC reals (k.map e) by
    simp [offC, Tri.map, he.zero, he.neg, reals, Conf.map]]; rfl

theorem map_toD : (toD o k u a f).map e = toD reals (k.map e) (u.map e) (a.map e) (f.map e) := by
  rw [toD, map_joint he, map_zeroV he]; rfl

theorem map_toE : (toE o k u a f).map e = toE reals (k.map e) (u.map e) (a.map e) (f.map e) := by
  rw [toE, map_joint he, show (offE o k).map e = offE reals (k.map e) by
    simp [offE, Tri.map, he.zero, reals, Conf.map]]; rfl

theorem map_toF : (toF o k u a f).map e = toF reals (k.map e) (u.map e) (a.map e) (f.map e) := by
  rw [toF, map_joint he, show (offF o k).map e = offF reals (k.map e) by
    simp [offF, Tri.map, he.zero, reals, Conf.map]]; rfl

theorem map_toH : (toH o k f).map e = toH reals (k.map e) (f.map e) := by
  rw [toH, map_joint he, show (offH o k).map e = offH reals (k.map e) by
    simp [offH, Tri.map, he.zero, he.neg, he.mul, reals, Conf.map], he.neg, he.zero]; rfl

theorem map_toG : (toG o k u a f).map e = toG reals (k.map e) (u.map e) (a.map e) (f.map e) := by
  rw [toG, map_joint he, map_zeroV he]; rfl

theorem map_centred (h : Heavy F) (f : Five F) : (centred o k h f).map e = centred reals (k.map e) (h.map e) (f.map e) := by
  simp [centred, Five.map, Fr.map, Tri.map, shiftOf, addV, crossV, FieldOps.sub, he.add, he.mul, he.neg, he.zero, reals,
    Conf.map, Heavy.map]

theorem map_inertial (m i11 i22 i33 i31 : F) (f g : Fr F) : e (inertial o m i11 i22 i33 i31 f g) =
    inertial reals (e m) (e i11) (e i22) (e i33) (e i31) (f.map e) (g.map e) := by
  simp [inertial, dotV, addV, crossV, tensor, FieldOps.sub, he.add, he.mul, he.neg, reals, Fr.map, Tri.map]

theorem map_inertia5 (h : Heavy F) (f g : Five F) : e (inertia5 o h f g) =
    inertia5 reals (h.map e) (f.map e) (g.map e) := by
  simp only [inertia5, he.add, map_inertial he, he.zero]; rfl

theorem map_weight5 (h : Heavy F) (g : Five F) : e (weight5 o h g) = weight5 reals (h.map e) (g.map e) := by
  simp [weight5, sinking, dotV, he.add, he.mul, reals, Fr.map, Tri.map, Five.map, Heavy.map]

end

end BP.EL
