import Verif.Gen.Invariance
import Verif.Lemmas.Invariance
import Verif.Lemmas.JacobianChecks

/-!
# The wheels and the heading: checks of the body of `eval_linear`, evaluated by the kernel
-/

namespace BP.EL

/-- Turning the heading `q3`. -/
def turn3 : Turn where
  V := turnQ3
  rot := 5033
  angles := [(2, 3), (17, 19), (23, 29), (31, 37), (41, 43), (47, 53), (59, 61), (67, 71)]
  S := 3 * 19 * 29 * 37 * 43 * 53 * 61 * 71
  ghosts := turnQ3Ghosts

/-- Turning the rear wheel `q6`. -/
def turn6 : Turn where
  V := turnQ6
  rot := 5036
  angles := [(2, 3), (11, 13), (17, 19), (23, 29), (41, 43), (47, 53), (59, 61), (67, 71)]
  S := 3 * 13 * 19 * 29 * 43 * 53 * 61 * 71
  ghosts := []

/-- Turning the front wheel `q8`. -/
def turn8 : Turn where
  V := turnQ8
  rot := 5038
  angles := [(2, 3), (11, 13), (17, 19), (23, 29), (31, 37), (41, 43), (59, 61), (67, 71)]
  S := 3 * 13 * 19 * 29 * 37 * 43 * 61 * 71
  ghosts := []

/-- The cell a prime stands for. -/
def cellIn : List (ℕ × ℕ) → ℕ → ℕ
  | [], _ => 0
  | t :: ps, p => bif Nat.beq t.1 p then t.2 else cellIn ps p

/-- A test for primes other than 2, 3, 7. -/
def primeOther (p : ℕ) : Bool :=
  (primeOk p).and ((Nat.beq p 2).not) |>.or
    ([13, 17, 19, 23, 29, 31, 37, 41, 43, 47, 53, 59, 61, 67, 71].any fun k => Nat.beq k p)

/-- The entries of the list of primes. -/
def primesOk (ps : List (ℕ × ℕ)) : Bool :=
  ps.all fun t => (primeOther t.1).and (Nat.beq (cellIn ps t.1) t.2)

/-- Is the prime the one of the cell? -/
def primeOf (ps : List (ℕ × ℕ)) (p l : ℕ) : Bool := ps.any fun t => (Nat.beq t.1 p).and (Nat.beq t.2 l)

/-- The statements for the cosine and the sine of an angle. -/
def angleStmts (ps : List (ℕ × ℕ)) (a : ℕ × ℕ) (t : ℕ × ℕ × ℕ) : Bool :=
  ((primeOf ps a.1 t.2.1).and (primeOf ps a.2 t.2.2)).and ((body.any (isCos t)).and (body.any (isSin t)))

/-- An angle is the one that is turned or has its statements. -/
def angleOk (ps : List (ℕ × ℕ)) (a : ℕ × ℕ) : Bool :=
  ((Nat.beq a.1 2).and (Nat.beq a.2 3)).or (trigCells.any (angleStmts ps a))

/-- An argument other than the angle. -/
def turnInput (ps : List (ℕ × ℕ)) (T : Turn) (l : ℕ) : Bool :=
  match T.V.look l with
  | none => true
  | some (.atom p) => (Nat.beq l T.rot).not.and
      ((Nat.beq (Nat.gcd p 6) 1).and (ps.any fun t => (Nat.beq t.1 p).and (Nat.beq t.2 l)))
  | some _ => false

/-- Is it the entry for the prime 5? -/
def isFive : Option JEnt → Bool
  | some (.atom p) => Nat.beq p 5
  | _ => false

/-- The variables for polynomials. -/
def ghostsSetup (ps : List (ℕ × ℕ)) (gs : List (ℕ × PolyQ)) : Bool :=
  (ghostsOk gs).and (gs.all fun g => ps.all fun t => (Nat.beq g.1 t.1).not)

/-- The entries besides those of the statements. -/
def turnSetup (ps : List (ℕ × ℕ)) (T : Turn) : Bool :=
  (primesOk ps).and ((T.angles.all (angleOk ps)).and (((List.range' 5033 52).all (turnInput ps T)).and
    ((isFive (T.V.look 494)).and (ghostsSetup ps T.ghosts))))

theorem turn_setups : (turnSetup turnQ3Primes turn3 && turnSetup turnQ6Primes turn6 &&
    turnSetup turnQ8Primes turn8) = true := by decide +kernel

theorem turn3_ok : turnCheck turnQ3Primes turn3 rateBody = true := by decide +kernel

theorem turn6_ok : turnCheck turnQ6Primes turn6 rateBody = true := by decide +kernel

theorem turn8_ok : turnCheck turnQ8Primes turn8 rateBody = true := by decide +kernel

/-- The rates do not depend on the wheels. -/
theorem turn_wheels : ((List.range 13).all fun i => (freeCell turn6 (rateCell i)).and (freeCell turn8 (rateCell i))) =
    true := by decide +kernel

/-- Rates other than those of the place do not depend on the heading. -/
theorem turn_heading : ((List.range' 2 11).all fun i => freeCell turn3 (rateCell i)) = true := by decide +kernel

theorem turn_divisors : ([35, 494, 1001].all fun l => (Nat.testBit rateMarks l).and
    ((freeCell turn3 l).and ((freeCell turn6 l).and (freeCell turn8 l)))) = true := by decide +kernel

/-- The rates of the place. -/
theorem turn_place : ((qeqO (jval turnQ3 5086) (paddq (pscale 2 1 aheadX.1, aheadX.2) (pscale 3 (-1) aheadY.1, aheadY.2))).and
    ((qeqO (jval turnQ3 5088) (paddq (pscale 3 1 aheadX.1, aheadX.2) (pscale 2 1 aheadY.1, aheadY.2))).and
      ((freeP aheadX.1).and (freeP aheadY.1)))) = true := by decide +kernel

end BP.EL
