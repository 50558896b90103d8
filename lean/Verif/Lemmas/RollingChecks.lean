import Verif.Gen.RollingEqs
import Verif.Lemmas.InvarianceChecks

/-!
# The rolling conditions: checks of the body of `eval_linear`, evaluated by the kernel
-/

namespace BP.EL

open E

/-- The table for the rolling conditions. -/
def roll : Turn where
  V := rollTable
  rot := 5033
  angles := [(2, 3), (17, 19), (23, 29), (31, 37), (41, 43), (47, 53)]
  S := 3 * 19 * 29 * 37 * 43 * 53
  ghosts := []

/-- The check of a statement. -/
def rollOk (s : ℕ × E) : Bool :=
  match rollTable.look s.1 with
  | none => true
  | some (.atom p) => primeOf rollPrimes p s.1
  | some (.trans q k) => qeqO (s.2.tpoly roll) (q, k)
  | some _ => false

/-- The entry for an argument. -/
def rollInput (l : ℕ) : Bool :=
  match rollTable.look l with
  | none => true
  | some (.atom p) => primeOf rollPrimes p l
  | some _ => false

/-- Cells, and what they contain. -/
def rollRows : List (ℕ × E) :=
  [(1, cos q3), (2, sin q3),
   (28, z 4 ⊛ z 10 ⊝ z 3 ⊛ z 6 ⊛ z 9), (33, z 4 ⊛ z 10 ⊝ z 3 ⊛ z 6 ⊛ z 9),
   (32, z 3 ⊛ z 5), (34, z 3 ⊛ z 5), (30, z 3 ⊛ z 6 ⊛ z 10 ⊹ z 4 ⊛ z 9),
   (23, z 5 ⊛ z 9), (24, z 6 ⊛ z 9), (25, z 5 ⊛ z 10), (26, z 6 ⊛ z 10),
   (27, z 3 ⊛ z 10 ⊹ z 4 ⊛ z 6 ⊛ z 9), (29, z 3 ⊛ z 9 ⊝ z 4 ⊛ z 6 ⊛ z 10), (31, z 4 ⊛ z 5),
   (224, n 0), (225, rr), (227, rr), (228, n 0), (456, neg (z 2)), (457, z 1), (458, n 0), (459, n 0), (460, n 0),
   (461, z 1), (462, z 2), (463, z 5 ⊛ z 9 ⊛ z 40 ⊝ z 6 ⊛ z 39),
   (464, z 5 ⊛ (d2 ⊹ z 40) ⊝ z 6 ⊛ (d1 ⊹ z 9 ⊛ (d3 ⊹ z 39))), (465, n 0),
   (466, z 4 ⊛ (z 5 ⊛ (d2 ⊹ z 40) ⊝ z 6 ⊛ (d1 ⊹ z 9 ⊛ (d3 ⊹ z 39)) ⊝ rr) ⊝ z 3 ⊛ (z 10 ⊛ (d3 ⊹ z 39))),
   (467, z 5 ⊛ z 10 ⊛ (d3 ⊹ z 39)), (468, neg (z 2)), (469, z 1),
   (470, z 3 ⊛ z 10 ⊛ z 40 ⊹ z 4 ⊛ (z 6 ⊛ z 9 ⊛ z 40 ⊹ z 5 ⊛ z 39)),
   (471, z 4 ⊛ (z 6 ⊛ (d2 ⊹ z 40) ⊹ z 5 ⊛ (d1 ⊹ z 9 ⊛ (d3 ⊹ z 39)))),
   (472, neg (z 3 ⊛ (z 5 ⊛ (d2 ⊹ z 40) ⊝ z 6 ⊛ (d1 ⊹ z 9 ⊛ (d3 ⊹ z 39)) ⊝ rr)) ⊝ z 4 ⊛ (z 10 ⊛ (d3 ⊹ z 39))),
   (473, z 5 ⊛ (d1 ⊹ z 9 ⊛ (d3 ⊹ z 39)) ⊹ z 6 ⊛ (d2 ⊹ z 40)),
   (474, (z 3 ⊛ z 9 ⊝ z 4 ⊛ z 6 ⊛ z 10) ⊛ (d3 ⊹ z 39))]

/-- The check of a row. -/
def rollRow (s : ℕ × E) : Bool :=
  ((s.2.reads rateMarks).and (Nat.testBit rateMarks s.1)).and (qeqOO (s.2.tpoly roll) (jval rollTable s.1))

theorem roll_setup : ((primesOk rollPrimes).and ((roll.angles.all (angleOk rollPrimes)).and
    ((List.range' 5033 52).all rollInput))) = true := by decide +kernel

theorem roll_ok : rateBody.all rollOk = true := by decide +kernel

theorem roll_rows : rollRows.all rollRow = true := by decide +kernel

end BP.EL
