import Mathlib.Analysis.SpecialFunctions.Trigonometric.Basic
import Mathlib.LinearAlgebra.Matrix.Notation

/-!
# Model of _mooreriderlean2012.py: the language its body is written in

`eval_linear` is eleven thousand lines of straight line code: `z[13] = (cos(lam));` and so
on.  The statements themselves are in Verif/Gen/EvalLinear*.lean, generated from the source
text.  Here: the syntax, the meaning and the arguments.

Every variable is a cell, numbered:

* `z[i]` is cell `i`,
* the arguments unpacked in lines 18-71, `lam` of line 73 and the local variables
  `u1, q1p, …` are the cells from 5031,
* `A[i, j]` is cell `5200 + 13 i + j`, `B[i, j]` cell `5400 + 4 i + j`, `C[i, j]` cell
  `5500 + 13 i + j`, `D[i, j]` cell `5800 + 4 i + j`.
-/

namespace BP.EL

/-- The expressions of _mooreriderlean2012.py:75-11186. -/
inductive E where
  /-- the value of a variable -/
  | z (cell : ℕ)
  /-- an integer -/
  | n (k : ℕ)
  /-- `0.25`, `0.5`, `1.5`: a number of quarters -/
  | qt (k : ℕ)
  | neg (a : E)
  | add (a b : E)
  | sub (a b : E)
  | mul (a b : E)
  | div (a b : E)
  /-- `pow(a, k)` -/
  | pow (a : E) (k : ℕ)
  /-- `pow(a, k/2)` for odd `k` -/
  | hpow (a : E) (k : ℕ)
  | sin (a : E)
  | cos (a : E)
  deriving DecidableEq

scoped infixl:65 " ⊹ " => E.add
scoped infixl:65 " ⊝ " => E.sub
scoped infixl:70 " ⊛ " => E.mul
scoped infixl:70 " ⊘ " => E.div

/-- What the interpreter does for the operators: any arithmetic, floating point included.
(every line of _mooreriderlean2012.py:74-11180) -/
structure Arith (F : Type) where
  int : ℕ → F
  quarter : ℕ → F
  neg : F → F
  add : F → F → F
  sub : F → F → F
  mul : F → F → F
  div : F → F → F
  pow : F → ℕ → F
  hpow : F → ℕ → F
  sin : F → F
  cos : F → F

/-- The value of an expression when the cells hold `m`. (the right sides of _mooreriderlean2012.py:74-11180) -/
def E.val {F : Type} (O : Arith F) (m : ℕ → F) : E → F
  | z l => m l
  | n k => O.int k
  | qt k => O.quarter k
  | neg a => O.neg (a.val O m)
  | add a b => O.add (a.val O m) (b.val O m)
  | sub a b => O.sub (a.val O m) (b.val O m)
  | mul a b => O.mul (a.val O m) (b.val O m)
  | div a b => O.div (a.val O m) (b.val O m)
  | pow a k => O.pow (a.val O m) k
  | hpow a k => O.hpow (a.val O m) k
  | sin a => O.sin (a.val O m)
  | cos a => O.cos (a.val O m)

/-- One assignment. (an assignment of _mooreriderlean2012.py:74-11180) -/
def step {F : Type} (O : Arith F) (m : ℕ → F) (s : ℕ × E) : ℕ → F :=
  Function.update m s.1 (s.2.val O m)

/-- A sequence of assignments. (the body, _mooreriderlean2012.py:74-11180) -/
def run {F : Type} (O : Arith F) (p : List (ℕ × E)) (m : ℕ → F) : ℕ → F :=
  p.foldl (step O) m

/-- Exact arithmetic.  Simplification: dividing by zero gives 0 and the root of a negative
number is 0, where numpy gives `nan` or `inf`. (_mooreriderlean2012.py:74-11180) -/
noncomputable def real : Arith ℝ where
  int k := k
  quarter k := k / 4
  neg x := -x
  add x y := x + y
  sub x y := x - y
  mul x y := x * y
  div x y := x / y
  pow x k := x ^ k
  hpow x k := √x ^ k
  sin := Real.sin
  cos := Real.cos

/-- `q1` (_mooreriderlean2012.py:17) -/
@[reducible] def q1 : E := .z 5031
/-- `q2` (_mooreriderlean2012.py:18) -/
@[reducible] def q2 : E := .z 5032
/-- `q3` (_mooreriderlean2012.py:19) -/
@[reducible] def q3 : E := .z 5033
/-- `q4` (_mooreriderlean2012.py:20) -/
@[reducible] def q4 : E := .z 5034
/-- `q5` (_mooreriderlean2012.py:21) -/
@[reducible] def q5 : E := .z 5035
/-- `q6` (_mooreriderlean2012.py:22) -/
@[reducible] def q6 : E := .z 5036
/-- `q7` (_mooreriderlean2012.py:23) -/
@[reducible] def q7 : E := .z 5037
/-- `q8` (_mooreriderlean2012.py:24) -/
@[reducible] def q8 : E := .z 5038
/-- `q9` (_mooreriderlean2012.py:25) -/
@[reducible] def q9 : E := .z 5039
/-- `u4` (_mooreriderlean2012.py:27) -/
@[reducible] def u4 : E := .z 5040
/-- `u6` (_mooreriderlean2012.py:28) -/
@[reducible] def u6 : E := .z 5041
/-- `u7` (_mooreriderlean2012.py:29) -/
@[reducible] def u7 : E := .z 5042
/-- `u9` (_mooreriderlean2012.py:30) -/
@[reducible] def u9 : E := .z 5043
/-- `T4` (_mooreriderlean2012.py:32) -/
@[reducible] def T4 : E := .z 5044
/-- `T6` (_mooreriderlean2012.py:33) -/
@[reducible] def T6 : E := .z 5045
/-- `T7` (_mooreriderlean2012.py:34) -/
@[reducible] def T7 : E := .z 5046
/-- `T9` (_mooreriderlean2012.py:35) -/
@[reducible] def T9 : E := .z 5047
/-- `c9` (_mooreriderlean2012.py:37) -/
@[reducible] def c9 : E := .z 5048
/-- `d1` (_mooreriderlean2012.py:38) -/
@[reducible] def d1 : E := .z 5049
/-- `d2` (_mooreriderlean2012.py:39) -/
@[reducible] def d2 : E := .z 5050
/-- `d3` (_mooreriderlean2012.py:40) -/
@[reducible] def d3 : E := .z 5051
/-- `d4` (_mooreriderlean2012.py:41) -/
@[reducible] def d4 : E := .z 5052
/-- `g` (_mooreriderlean2012.py:42) -/
@[reducible] def g : E := .z 5053
/-- `ic11` (_mooreriderlean2012.py:43) -/
@[reducible] def ic11 : E := .z 5054
/-- `ic22` (_mooreriderlean2012.py:44) -/
@[reducible] def ic22 : E := .z 5055
/-- `ic31` (_mooreriderlean2012.py:45) -/
@[reducible] def ic31 : E := .z 5056
/-- `ic33` (_mooreriderlean2012.py:46) -/
@[reducible] def ic33 : E := .z 5057
/-- `id11` (_mooreriderlean2012.py:47) -/
@[reducible] def id11 : E := .z 5058
/-- `id22` (_mooreriderlean2012.py:48) -/
@[reducible] def id22 : E := .z 5059
/-- `ie11` (_mooreriderlean2012.py:49) -/
@[reducible] def ie11 : E := .z 5060
/-- `ie22` (_mooreriderlean2012.py:50) -/
@[reducible] def ie22 : E := .z 5061
/-- `ie31` (_mooreriderlean2012.py:51) -/
@[reducible] def ie31 : E := .z 5062
/-- `ie33` (_mooreriderlean2012.py:52) -/
@[reducible] def ie33 : E := .z 5063
/-- `if11` (_mooreriderlean2012.py:53) -/
@[reducible] def if11 : E := .z 5064
/-- `if22` (_mooreriderlean2012.py:54) -/
@[reducible] def if22 : E := .z 5065
/-- `ig11` (_mooreriderlean2012.py:55) -/
@[reducible] def ig11 : E := .z 5066
/-- `ig22` (_mooreriderlean2012.py:56) -/
@[reducible] def ig22 : E := .z 5067
/-- `ig31` (_mooreriderlean2012.py:57) -/
@[reducible] def ig31 : E := .z 5068
/-- `ig33` (_mooreriderlean2012.py:58) -/
@[reducible] def ig33 : E := .z 5069
/-- `k9` (_mooreriderlean2012.py:59) -/
@[reducible] def k9 : E := .z 5070
/-- `l1` (_mooreriderlean2012.py:60) -/
@[reducible] def l1 : E := .z 5071
/-- `l2` (_mooreriderlean2012.py:61) -/
@[reducible] def l2 : E := .z 5072
/-- `l3` (_mooreriderlean2012.py:62) -/
@[reducible] def l3 : E := .z 5073
/-- `l4` (_mooreriderlean2012.py:63) -/
@[reducible] def l4 : E := .z 5074
/-- `l5` (_mooreriderlean2012.py:64) -/
@[reducible] def l5 : E := .z 5075
/-- `l6` (_mooreriderlean2012.py:65) -/
@[reducible] def l6 : E := .z 5076
/-- `mc` (_mooreriderlean2012.py:66) -/
@[reducible] def mc : E := .z 5077
/-- `md` (_mooreriderlean2012.py:67) -/
@[reducible] def md : E := .z 5078
/-- `me` (_mooreriderlean2012.py:68) -/
@[reducible] def me : E := .z 5079
/-- `mf` (_mooreriderlean2012.py:69) -/
@[reducible] def mf : E := .z 5080
/-- `mg` (_mooreriderlean2012.py:70) -/
@[reducible] def mg : E := .z 5081
/-- `rf` (_mooreriderlean2012.py:71) -/
@[reducible] def rf : E := .z 5082
/-- `rr` (_mooreriderlean2012.py:72) -/
@[reducible] def rr : E := .z 5083
/-- `lam` (_mooreriderlean2012.py:74) -/
@[reducible] def lam : E := .z 5084
/-- `u1` (_mooreriderlean2012.py:356) -/
@[reducible] def u1 : E := .z 5085
/-- `q1p` (_mooreriderlean2012.py:357) -/
@[reducible] def q1p : E := .z 5086
/-- `u2` (_mooreriderlean2012.py:373) -/
@[reducible] def u2 : E := .z 5087
/-- `q2p` (_mooreriderlean2012.py:374) -/
@[reducible] def q2p : E := .z 5088
/-- `u3` (_mooreriderlean2012.py:386) -/
@[reducible] def u3 : E := .z 5089
/-- `q3p` (_mooreriderlean2012.py:387) -/
@[reducible] def q3p : E := .z 5090
/-- `q4p` (_mooreriderlean2012.py:388) -/
@[reducible] def q4p : E := .z 5091
/-- `u5` (_mooreriderlean2012.py:394) -/
@[reducible] def u5 : E := .z 5092
/-- `q5p` (_mooreriderlean2012.py:395) -/
@[reducible] def q5p : E := .z 5093
/-- `q6p` (_mooreriderlean2012.py:396) -/
@[reducible] def q6p : E := .z 5094
/-- `q7p` (_mooreriderlean2012.py:397) -/
@[reducible] def q7p : E := .z 5095
/-- `u8` (_mooreriderlean2012.py:419) -/
@[reducible] def u8 : E := .z 5096
/-- `q8p` (_mooreriderlean2012.py:420) -/
@[reducible] def q8p : E := .z 5097
/-- `q9p` (_mooreriderlean2012.py:421) -/
@[reducible] def q9p : E := .z 5098
/-- `u4p` (_mooreriderlean2012.py:1473) -/
@[reducible] def u4p : E := .z 5099
/-- `u6p` (_mooreriderlean2012.py:1478) -/
@[reducible] def u6p : E := .z 5100
/-- `u7p` (_mooreriderlean2012.py:1483) -/
@[reducible] def u7p : E := .z 5101
/-- `u9p` (_mooreriderlean2012.py:1488) -/
@[reducible] def u9p : E := .z 5102

/-- The cells when the body starts, lines 10-73: the arrays made by `empty` and the local
variables hold anything (`junk`), the arguments are unpacked, `lam` is the pitch.
`pitch` is `dtk.bicycle.pitch_from_roll_and_steer`.  Simplification: a local variable that
is not assigned yet would raise, here it holds anything. (_mooreriderlean2012.py:10-73) -/
def start {F : Type} (pitch : F → F → F → F → F → F → F → F) (junk : ℕ → F)
    (q : Fin 9 → F) (u r : Fin 4 → F) (p : Fin 36 → F) (l : ℕ) : F :=
  if h : 5031 ≤ l ∧ l < 5040 then q ⟨l - 5031, by omega⟩
  else if h : 5040 ≤ l ∧ l < 5044 then u ⟨l - 5040, by omega⟩
  else if h : 5044 ≤ l ∧ l < 5048 then r ⟨l - 5044, by omega⟩
  else if h : 5048 ≤ l ∧ l < 5084 then p ⟨l - 5048, by omega⟩
  else if l = 5084 then pitch (q 3) (q 6) (p 34) (p 35) (p 1) (p 2) (p 3)
  else junk l

/-- What `eval_linear` returns, line 11188. (_mooreriderlean2012.py:11188) -/
@[ext] structure Result (F : Type) where
  A : Matrix (Fin 13) (Fin 13) F
  B : Matrix (Fin 13) (Fin 4) F
  C : Matrix (Fin 18) (Fin 13) F
  D : Matrix (Fin 18) (Fin 4) F

/-- The four matrices found in the cells. (_mooreriderlean2012.py:11180-11188) -/
def matrices {F : Type} (m : ℕ → F) : Result F where
  A := .of fun i j => m (5200 + 13 * i + j)
  B := .of fun i j => m (5400 + 4 * i + j)
  C := .of fun i j => m (5500 + 13 * i + j)
  D := .of fun i j => m (5800 + 4 * i + j)

end BP.EL
