import Verif.Model.Bicycle

/-!
# bicycle.py:105-167 in the arithmetic of the machine

The same lines as `benchmarkParToCanonical`, kept as assignments, so that the result of every operation can be rounded.
-/

namespace BP

/-- The expressions of bicycle.py:105-165. -/
inductive RExpr where
  /-- `p[k]` or a local variable -/
  | var (k : String)
  /-- an integer -/
  | int (n : ℕ)
  | neg (a : RExpr)
  | add (a b : RExpr)
  | sub (a b : RExpr)
  | mul (a b : RExpr)
  | div (a b : RExpr)
  /-- `a**2` -/
  | sq (a : RExpr)
  /-- `umath.cos(a)` -/
  | cos (a : RExpr)
  /-- `umath.sin(a)` -/
  | sin (a : RExpr)

namespace RExpr

/-- `+` (bicycle.py:105-165) -/
instance : Add RExpr := ⟨.add⟩
/-- `-` (bicycle.py:105-165) -/
instance : Sub RExpr := ⟨.sub⟩
/-- `*` (bicycle.py:105-165) -/
instance : Mul RExpr := ⟨.mul⟩
/-- `/` (bicycle.py:105-165) -/
instance : Div RExpr := ⟨.div⟩
/-- the sign `-` (bicycle.py:105-165) -/
instance : Neg RExpr := ⟨.neg⟩
/-- The name of a key or variable. (bicycle.py:105-165) -/
instance : Coe String RExpr := ⟨.var⟩

end RExpr

/-- The operations of the machine on numbers; `dot a b c d` is `np.dot` of the row `(a, c)` and the column `(b, d)`.
(bicycle.py:61-165) -/
structure Machine where
  neg : ℝ → ℝ
  add : ℝ → ℝ → ℝ
  sub : ℝ → ℝ → ℝ
  mul : ℝ → ℝ → ℝ
  div : ℝ → ℝ → ℝ
  sq : ℝ → ℝ
  cos : ℝ → ℝ
  sin : ℝ → ℝ
  dot : ℝ → ℝ → ℝ → ℝ → ℝ

/-- The value of an expression. (bicycle.py:105-165) -/
noncomputable def RExpr.val (O : Machine) (m : String → ℝ) : RExpr → ℝ
  | var k => m k
  | int n => n
  | neg a => O.neg (a.val O m)
  | add a b => O.add (a.val O m) (b.val O m)
  | sub a b => O.sub (a.val O m) (b.val O m)
  | mul a b => O.mul (a.val O m) (b.val O m)
  | div a b => O.div (a.val O m) (b.val O m)
  | sq a => O.sq (a.val O m)
  | cos a => O.cos (a.val O m)
  | sin a => O.sin (a.val O m)

/-- Assignments in order. (bicycle.py:105-165) -/
noncomputable def runLines (O : Machine) (p : List (String × RExpr)) (m : String → ℝ) : String → ℝ :=
  p.foldl (fun m s => Function.update m s.1 (s.2.val O m)) m

open RExpr in
/-- bicycle.py:105-165, one entry for each assignment, in order; Python's operators of one rank associate to the left, as
Lean's.  `K2pp`, `K2dp` and `C1pp` are 0 and are left out. -/
def canonLines : List (String × RExpr) :=
  let p : String → RExpr := .var
  let C : RExpr := cos (p "lam")
  let S : RExpr := sin (p "lam")
  [("mT", p "mR" + p "mB" + p "mH" + p "mF"),
   ("xT", (p "xB" * p "mB" + p "xH" * p "mH" + p "w" * p "mF") / p "mT"),
   ("zT", (-p "rR" * p "mR" + p "zB" * p "mB" + p "zH" * p "mH" - p "rF" * p "mF") / p "mT"),
   ("ITxx", p "IRxx" + p "IBxx" + p "IHxx" + p "IFxx" + p "mR" * sq (p "rR") + p "mB" * sq (p "zB") + p "mH" * sq (p "zH") +
     p "mF" * sq (p "rF")),
   ("ITxz", p "IBxz" + p "IHxz" - p "mB" * p "xB" * p "zB" - p "mH" * p "xH" * p "zH" + p "mF" * p "w" * p "rF"),
   ("IRzz", p "IRxx"),
   ("IFzz", p "IFxx"),
   ("ITzz", p "IRzz" + p "IBzz" + p "IHzz" + p "IFzz" + p "mB" * sq (p "xB") + p "mH" * sq (p "xH") + p "mF" * sq (p "w")),
   ("mA", p "mH" + p "mF"),
   ("xA", (p "xH" * p "mH" + p "w" * p "mF") / p "mA"),
   ("zA", (p "zH" * p "mH" - p "rF" * p "mF") / p "mA"),
   ("IAxx", p "IHxx" + p "IFxx" + p "mH" * sq (p "zH" - p "zA") + p "mF" * sq (p "rF" + p "zA")),
   ("IAxz", p "IHxz" - p "mH" * (p "xH" - p "xA") * (p "zH" - p "zA") + p "mF" * (p "w" - p "xA") * (p "rF" + p "zA")),
   ("IAzz", p "IHzz" + p "IFzz" + p "mH" * sq (p "xH" - p "xA") + p "mF" * sq (p "w" - p "xA")),
   ("uA", (p "xA" - p "w" - p "c") * C - p "zA" * S),
   ("IAll", p "mA" * sq (p "uA") + p "IAxx" * sq S + int 2 * p "IAxz" * S * C + p "IAzz" * sq C),
   ("IAlx", -p "mA" * p "uA" * p "zA" + p "IAxx" * S + p "IAxz" * C),
   ("IAlz", p "mA" * p "uA" * p "xA" + p "IAxz" * S + p "IAzz" * C),
   ("mu", p "c" / p "w" * C),
   ("SR", p "IRyy" / p "rR"),
   ("SF", p "IFyy" / p "rF"),
   ("ST", p "SR" + p "SF"),
   ("SA", p "mA" * p "uA" + p "mu" * p "mT" * p "xT"),
   ("Mpp", p "ITxx"),
   ("Mpd", p "IAlx" + p "mu" * p "ITxz"),
   ("Mdp", p "Mpd"),
   ("Mdd", p "IAll" + int 2 * p "mu" * p "IAlz" + sq (p "mu") * p "ITzz"),
   ("K0pp", p "mT" * p "zT"),
   ("K0pd", -p "SA"),
   ("K0dp", p "K0pd"),
   ("K0dd", -p "SA" * S),
   ("K2pd", (p "ST" - p "mT" * p "zT") / p "w" * C),
   ("K2dd", (p "SA" + p "SF" * S) / p "w" * C),
   ("C1pd", p "mu" * p "ST" + p "SF" * C + p "ITxz" / p "w" * C - p "mu" * p "mT" * p "zT"),
   ("C1dp", -(p "mu" * p "ST" + p "SF" * C)),
   ("C1dd", p "IAlz" / p "w" * C + p "mu" * (p "SA" + p "ITzz" / p "w" * C))]

/-- bicycle.py:143-167: the four matrices as the machine computes them from a dictionary. -/
noncomputable def machineCanon (O : Machine) (d : Dict ℝ) : Canon :=
  let r := runLines O canonLines fun k => Dict.getD d k 0
  { M := !![r "Mpp", r "Mpd"; r "Mdp", r "Mdd"], C1 := !![0, r "C1pd"; r "C1dp", r "C1dd"],
    K0 := !![r "K0pp", r "K0pd"; r "K0dp", r "K0dd"], K2 := !![0, r "K2pd"; 0, r "K2dd"] }

/-! ## inertia.py in the arithmetic of the machine -/

open RExpr in
/-- inertia.py:245: `k * T**2 / 4. / pi**2`. -/
def torInertiaExpr : RExpr := var "k" * sq (var "T") / int 4 / sq (var "pi")

open RExpr in
/-- inertia.py:264: `4. * I * pi**2 / T**2`. -/
def stiffnessExpr : RExpr := int 4 * var "I" * sq (var "pi") / sq (var "T")

open RExpr in
/-- inertia.py:292: `m / 2. * (ro**2 + ri**2)`. -/
def tubeAxisExpr : RExpr := var "m" / int 2 * (sq (var "ro") + sq (var "ri"))

open RExpr in
/-- inertia.py:293: `m / 12. * (3 * ro**2 + 3 * ri**2 + l**2)`. -/
def tubeNormalExpr : RExpr := var "m" / int 12 * (int 3 * sq (var "ro") + int 3 * sq (var "ri") + sq (var "l"))

/-- `tor_inertia(k, T)` (inertia.py:245) with the `pi` of the machine. -/
noncomputable def machineTorInertia (O : Machine) (pi k T : ℝ) : ℝ :=
  torInertiaExpr.val O fun v => if v = "k" then k else if v = "T" then T else pi

/-- `torsional_pendulum_stiffness(I, T)` (inertia.py:264) with the `pi` of the machine. -/
noncomputable def machineStiffness (O : Machine) (pi I T : ℝ) : ℝ :=
  stiffnessExpr.val O fun v => if v = "I" then I else if v = "T" then T else pi

/-- `tube_inertia(l, m, ro, ri)` (inertia.py:292-295). -/
noncomputable def machineTube (O : Machine) (l m ro ri : ℝ) : ℝ × ℝ × ℝ :=
  let e : String → ℝ := fun v => if v = "l" then l else if v = "m" then m else if v = "ro" then ro else ri
  let Iy := tubeNormalExpr.val O e
  (tubeAxisExpr.val O e, Iy, Iy)

/-! ## bicycle.py:61-74 in the arithmetic of the machine -/

/-- `1. / (M[0, 0] * M[1, 1] - M[0, 1] * M[1, 0]) * np.array([[M[1, 1], -M[0, 1]], [-M[1, 0], M[0, 0]]])` (bicycle.py:61-63). -/
noncomputable def machineInv (O : Machine) (M : Mat2 ℝ) : Mat2 ℝ :=
  let q := O.div 1 (O.sub (O.mul (M 0 0) (M 1 1)) (O.mul (M 0 1) (M 1 0)))
  !![O.mul q (M 1 1), O.mul q (O.neg (M 0 1)); O.mul q (O.neg (M 1 0)), O.mul q (M 0 0)]

/-- An entry of `np.dot(a, b)` (bicycle.py:68-70). -/
noncomputable def machineDot (O : Machine) (a b : Mat2 ℝ) (i j : Fin 2) : ℝ := O.dot (a i 0) (b 0 j) (a i 1) (b 1 j)

/-- `-np.dot(invM, (g * K0 + v**2 * K2))` (bicycle.py:68). -/
noncomputable def machineA21 (O : Machine) (c : Canon) (v g : ℝ) (i j : Fin 2) : ℝ :=
  O.neg (machineDot O (machineInv O c.M) (.of fun i j => O.add (O.mul g (c.K0 i j)) (O.mul (O.sq v) (c.K2 i j))) i j)

/-- `-np.dot(invM, v * C1)` (bicycle.py:70). -/
noncomputable def machineA22 (O : Machine) (c : Canon) (v : ℝ) (i j : Fin 2) : ℝ :=
  O.neg (machineDot O (machineInv O c.M) (.of fun i j => O.mul v (c.C1 i j)) i j)

/-- The state matrix that `ab_matrix` (bicycle.py:61-72) computes. -/
noncomputable def machineA (O : Machine) (c : Canon) (v g : ℝ) : Matrix (Fin 4) (Fin 4) ℝ :=
  let p := machineA21 O c v g
  let q := machineA22 O c v
  !![0, 0, 1, 0;
     0, 0, 0, 1;
     p 0 0, p 0 1, q 0 0, q 0 1;
     p 1 0, p 1 1, q 1 0, q 1 1]

end BP
